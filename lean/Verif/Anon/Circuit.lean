import Verif.Anon.Mixing
import Verif.Merkle.Model
import Verif.Plonk.Ecc

/-!
Model of the circuit of anonymous transfers: commitments, nullifiers and Merkle paths
(api/src/anon_xfr/mod.rs:186-369) and `build_multi_xfr_cs` (api/src/anon_xfr/abar_to_abar.rs:529-655).

The hash is the Rescue instance `p`; the code uses `RescueInstance::new()` everywhere.
-/

namespace Verif.Anon

open Verif.Plonk

/-- three public key scalars, `[_; 3]` in the code -/
abbrev PK (α : Type) := α × α × α

/-- two secret key scalars, `[_; 2]` in the code -/
abbrev SK (α : Type) := α × α

/-! ### Native functions -/

section native
variable {F : Type} [Field F] (p : Rescue.Params F)

/-- the first output word of the permutation, `hash.rescue(&[..])[0]` -/
def hash4 (a b c d : F) : F := (Rescue.rescue p (a, b, c, d)).1

/-- models `commit`, mod.rs:249-270, on scalars: `amount` and `asset_type` are already scalars here -/
def commit (pk : PK F) (blind amount ty : F) : F :=
  hash4 p (hash4 p blind amount ty pk.1) pk.2.1 pk.2.2 0

/-- models `nullify`, mod.rs:192-220, on scalars -/
def nullify (pk : PK F) (sk : SK F) (uid amount ty : F) : F :=
  hash4 p (hash4 p (uid * 2 ^ 64 + amount) ty pk.1 pk.2.1) pk.2.2 sk.1 sk.2

/-- the hash of an inner tree node, abar_to_abar.rs:508-515 and accumulators/src/merkle_tree.rs:416-422 -/
def treeHash (a b c : F) : F := hash4 p a b c 0

/-- the leaf of a record, abar_to_abar.rs:507 -/
def leafHash (uid com : F) : F := hash4 p uid com 0 0

/-- models `MTNode`, structs.rs:20-31; the two `u8` fields are naturals -/
structure MTNode (F : Type) where
  siblings1 : F
  siblings2 : F
  isLeftChild : Nat
  isRightChild : Nat

/-- models the loop of abar_to_abar.rs:508-515 -/
def nativeStep (node : F) (n : MTNode F) : F :=
  match n.isLeftChild, n.isRightChild with
  | 1, 0 => treeHash p node n.siblings1 n.siblings2
  | 0, 0 => treeHash p n.siblings1 node n.siblings2
  | _, _ => treeHash p n.siblings1 n.siblings2 node

/-- the conversion from a proof node of the accumulator to an `MTNode`, as done by the users of the two libraries
(api/benches/anon_xfr.rs:430-440) -/
def mtNode (n : Merkle.ProofNode F) : MTNode F where
  siblings1 := n.siblings1
  siblings2 := n.siblings2
  isLeftChild := if n.path = .left then 1 else 0
  isRightChild := if n.path = .right then 1 else 0

/-- models `PayerWitness`, structs.rs:278-291, on scalars; the secret key is that of the folding witness -/
structure Payer (F : Type) where
  uid : F
  amount : F
  ty : F
  blind : F
  path : List (MTNode F)

/-- models `PayeeWitness`, structs.rs:294-305, on scalars -/
structure Payee (F : Type) where
  amount : F
  blind : F
  ty : F
  pk : PK F

/-- the Merkle root of abar_to_abar.rs:486-516, for one payer -/
def payerRoot (pk : PK F) (s : Payer F) : F :=
  s.path.foldl (nativeStep p) (leafHash p s.uid (commit p pk s.blind s.amount s.ty))

/-- models `AXfrPubInputs::from_witness` and `to_vec`, abar_to_abar.rs:421-526: nullifiers, root of the first payer,
commitments, fee; an empty list of payers panics -/
def pubInputs (pk : PK F) (sk : SK F) (payers : List (Payer F)) (payees : List (Payee F)) (fee : F) : Option (List F) :=
  match payers with
  | [] => none
  | s :: _ => some (payers.map (fun s => nullify p pk sk s.uid s.amount s.ty) ++ [payerRoot p pk s] ++
      payees.map (fun t => commit p t.pk t.blind t.amount t.ty) ++ [fee])

end native

/-! ### The circuit -/

section circuit
variable {F : Type} [Field F] (p : Rescue.Params F)

/-- models `commit_in_cs`, mod.rs:230-247 -/
def commitInCs (blind amount ty : Nat) (pk : PK Nat) : Build F Nat := do
  let cur ← rescueCircuit p (blind, amount, ty, pk.1)
  let out ← rescueCircuit p (cur.1, pk.2.1, pk.2.2, zeroVar)
  pure out.1

/-- models `nullify_in_cs`, mod.rs:273-294 -/
def nullifyInCs (sk : SK Nat) (uidAmount ty : Nat) (pk : PK Nat) : Build F Nat := do
  let cur ← rescueCircuit p (uidAmount, ty, pk.1, pk.2.1)
  let out ← rescueCircuit p (cur.1, pk.2.2, sk.1, sk.2)
  pure out.1

/-- models `MerkleNodeVars`, structs.rs:251-261 -/
structure NodeVars where
  s1 : Nat
  s2 : Nat
  isLeft : Nat
  isRight : Nat

/-- mod.rs:298-307: the variables of one node -/
def nodeVars (n : MTNode F) : Build F NodeVars := do
  let s1 ← newVar (fun _ => n.siblings1)
  let s2 ← newVar (fun _ => n.siblings2)
  let l ← newVar (fun _ => (n.isLeftChild : F))
  let r ← newVar (fun _ => (n.isRightChild : F))
  pure ⟨s1, s2, l, r⟩

/-- mod.rs:309-316: the constraints on one node -/
def nodeBits (v : NodeVars) : Build F Unit := do
  insertBooleanGate v.isLeft
  insertBooleanGate v.isRight
  let s ← addV v.isLeft v.isRight
  insertBooleanGate s

/-- models `add_merkle_path_variables`, mod.rs:297-319 -/
def addMerklePath (path : List (MTNode F)) : Build F (List NodeVars) := do
  let vs ← path.mapM nodeVars
  vs.foldlM (fun _ v => nodeBits v) ()
  pure vs

variable [DecidableEq F]

/-- models `sort`, mod.rs:325-345 -/
def sortNode (node : Nat) (v : NodeVars) : Build F SV := do
  let left ← selectV v.s1 node v.isLeft
  let right ← selectV v.s2 node v.isRight
  let sum ← addV left right
  let mid ← linearCombine node v.s1 v.s2 sum 1 1 1 (-1)
  pure (left, mid, right, zeroVar)

/-- the body of the loop of `compute_merkle_root_variables`, mod.rs:357-367 -/
def rootStep (node : Nat) (v : NodeVars) : Build F Nat := do
  let st ← sortNode node v
  let h ← rescueCircuit p st
  pure h.1

/-- models `compute_merkle_root_variables`, mod.rs:348-369 -/
def merkleRootVars (uid com : Nat) (path : List NodeVars) : Build F Nat := do
  let leaf ← rescueCircuit p (uid, com, zeroVar, zeroVar)
  path.foldlM (rootStep p) leaf.1

/-- models `PayerWitnessVars`, structs.rs:236-242 -/
structure PayerVars where
  uid : Nat
  amount : Nat
  ty : Nat
  path : List NodeVars
  blind : Nat

/-- models `PayeeWitnessVars`, structs.rs:244-249 -/
structure PayeeVars where
  amount : Nat
  blind : Nat
  ty : Nat
  pk : PK Nat

omit [DecidableEq F] in
/-- models one step of `add_payers_witnesses`, abar_to_abar.rs:790-811 -/
def payerVars (s : Payer F) : Build F PayerVars := do
  let uid ← newVar (fun _ => s.uid)
  let amount ← newVar (fun _ => s.amount)
  let blind ← newVar (fun _ => s.blind)
  let path ← addMerklePath s.path
  let ty ← newVar (fun _ => s.ty)
  pure ⟨uid, amount, ty, path, blind⟩

omit [DecidableEq F] in
/-- three new variables -/
def pkVars (k : PK F) : Build F (PK Nat) := do
  let a ← newVar (fun _ => k.1)
  let b ← newVar (fun _ => k.2.1)
  let c ← newVar (fun _ => k.2.2)
  pure (a, b, c)

omit [DecidableEq F] in
/-- models one step of `add_payees_witnesses`, abar_to_abar.rs:814-841 -/
def payeeVars (s : Payee F) : Build F PayeeVars := do
  let amount ← newVar (fun _ => s.amount)
  let blind ← newVar (fun _ => s.blind)
  let ty ← newVar (fun _ => s.ty)
  let pk ← pkVars s.pk
  pure ⟨amount, blind, ty, pk⟩

variable [ScalarRepr F]

/-- abar_to_abar.rs:600-604: compare with the root of the first payer -/
def checkRoot (root : Option Nat) (r : Nat) : Build F (Option Nat) :=
  match root with
  | some x => do
    equalV x r
    pure (some x)
  | none => pure (some r)

/-- the body of the loop over the payers, abar_to_abar.rs:560-608 -/
def payerStep (pk : PK Nat) (sk : SK Nat) (root : Option Nat) (v : PayerVars) : Build F (Option Nat) := do
  let com ← commitInCs p v.blind v.amount v.ty pk
  let ua ← linearCombine v.uid v.amount zeroVar zeroVar (2 ^ 64) 1 0 0
  let nul ← nullifyInCs p sk ua v.ty pk
  let r ← merkleRootVars p v.uid com v.path
  let _ ← rangeCheck v.amount 64
  let root ← checkRoot root r
  preparePi nul
  pure root

/-- the body of the loop over the payees, abar_to_abar.rs:612-627 -/
def payeeStep (v : PayeeVars) : Build F Unit := do
  let com ← commitInCs p v.blind v.amount v.ty v.pk
  let _ ← rangeCheck v.amount 64
  preparePi com

/-- the variables of the witness of a transfer; the code does not return them, the model does, so that theorems can say
what an assignment gives them -/
structure XfrVars (α : Type) where
  payers : List PayerVars
  payees : List PayeeVars
  pk : PK Nat
  sk : SK Nat
  fold : α

/-- models `build_multi_xfr_cs`, abar_to_abar.rs:529-655, on a fresh system.  `folding` stands for
`prove_address_folding_in_cs` (abar_to_abar.rs:640-646), which is a parameter.  The code returns the system and its
number of constraints; the variables are returned in addition. -/
def buildMultiXfr {α : Type} (folding : PK Nat → SK Nat → Build F α) (payers : List (Payer F)) (payees : List (Payee F))
    (pk : PK F) (sk : SK F) (fee feeType : F) : Build F (XfrVars α) :=
  if payers = [] ∨ payees = [] then failure
  else do
    let pvs ← payers.mapM payerVars
    let qvs ← payees.mapM payeeVars
    let pkv ← pkVars pk
    let s0 ← newVar (fun _ => sk.1)
    let s1 ← newVar (fun _ => sk.2)
    let root ← pvs.foldlM (payerStep p pkv (s0, s1)) none
    let root ← liftM root
    preparePi root
    qvs.foldlM (fun _ v => payeeStep p v) ()
    let feeVar ← newVar (fun _ => fee)
    preparePi feeVar
    let fold ← folding pkv (s0, s1)
    assetMixing (pvs.map (fun v => (v.ty, v.amount))) (qvs.map (fun v => (v.ty, v.amount))) feeType feeVar
    pad
    pure ⟨pvs, qvs, pkv, (s0, s1), fold⟩

end circuit

end Verif.Anon
