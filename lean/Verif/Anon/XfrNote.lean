import Verif.Anon.ConvertGen
import Verif.Anon.PreCheck
import Verif.Anon.Keys

/-!
Anonymous transfer notes: `init_anon_xfr_note`, `finish_anon_xfr_note`, `verify_anon_xfr_note` and
`batch_verify_anon_xfr_note` (api/src/anon_xfr/abar_to_abar.rs:78-359).

The PLONK prover and verifier and the Bulletproofs proof of the key pair are parameters, the random samples of the provers
are arguments.  The circuit is `buildMultiXfr` with `foldingCircuit`, the delegated Schnorr verifier is the one of
`Verif/Crypto/DelegatedSchnorr.lean`.
-/

namespace Verif.Anon

open Verif.Plonk Verif.SimFr
open Verif.DelegatedSchnorr (Tr Msg)

/-! ### Notes -/

/-- models `AXfrBody`, abar_to_abar.rs:61-76; an output record is its commitment (structs.rs:33-39) -/
structure XfrBody (F K : Type) where
  inputs : List F
  outputs : List F
  root : F
  version : UInt64
  fee : UInt32
  memos : List (AMemo K)

/-- models `AXfrNote`, abar_to_abar.rs:39-48 -/
structure XfrNote (P : SimFr.Params) (F K Pf G Mp : Type) where
  body : XfrBody F K
  proof : Pf
  folding : FoldInst P F G Mp

/-- models `MTLeafInfo`, structs.rs:56-67 -/
structure LeafInfo (F : Type) where
  path : List (MTNode F)
  root : F
  version : UInt64
  uid : UInt64

/-- models `OpenAnonAssetRecord`, structs.rs:80-89, with the tree position -/
structure OpenAbarAt (F AT K : Type) extends OpenAbar F AT K where
  leaf : Option (LeafInfo F)

/-- models `AXfrPreNote` with `AXfrWitness`, abar_to_abar.rs:50-59 and 361-370.  The secret key of a payer witness is that of
the key pair, and `asset_type` is a scalar already. -/
structure XfrPre (F K : Type) where
  body : XfrBody F K
  payers : List (Payer F)
  payees : List (F × F × F × K)
  fee : UInt32
  keypair : AKeyPair K

/-- the messages of the transcript before PLONK, abar_to_abar.rs:30-37, 307-315, 340-345 -/
def xfrTranscript (n m : Nat) : List (String × Option UInt64) :=
  [("Anon Xfr Plonk Proof", none), ("Number of input ABARs", some (UInt64.ofNat n)),
    ("Number of output ABARs", some (UInt64.ofNat m))]

/-- the label of the transcript for the key pair, abar_to_abar.rs:32-33 -/
def xfrFoldLabel : String := "Anon Xfr Folding Proof"

/-- the PLONK verifier for given parameters, transcript and public inputs (plonk/src/plonk/verifier.rs) -/
structure XfrExt (F Par Pf : Type) where
  plonk : Par → List (String × Option UInt64) → List F → Pf → Bool

/-- the PLONK prover `prover_with_lagrange` for given parameters, transcript and witness -/
structure XfrProver (F Par Pf : Type) where
  prove : Par → List (String × Option UInt64) → List F → Res Pf

section
variable {P : SimFr.Params} {F K Par Pf G Hs Mp : Type} [Field F]

/-- models `AXfrPubInputs::to_vec`, abar_to_abar.rs:420-432 -/
def xfrPublic (nuls : List F) (root : F) (coms : List F) (fee : UInt32) : List F :=
  nuls ++ [root] ++ coms ++ [(fee.toNat : F)]

/-- models `verify_xfr`, abar_to_abar.rs:333-359 -/
def XfrExt.verifyProof (E : XfrExt F Par Pf) (par : Par) (nuls coms : List F) (root : F) (fee : UInt32) (pf : Pf) (fold : List F) :
    Res Unit :=
  if E.plonk par (xfrTranscript nuls.length coms.length) (xfrPublic nuls root coms fee ++ fold) pf then .ok () else .err

variable [Fact P.r.Prime] [AddCommGroup G] [DecidableEq G] [Module (ZMod P.r) G]

/-- the body of the closure, abar_to_abar.rs:259-290, the same as abar_to_abar.rs:204-234 -/
def XfrExt.checkNote (E : XfrExt F Par Pf) (Y : FoldExt P F G Hs Mp) (par : Par) (note : XfrNote P F K Pf G Mp) (root : F) (h : Hs) :
    Res Unit := do
  let ch ← Y.verify xfrFoldLabel h note.folding
  let fold ← note.folding.input ch
  E.verifyProof par note.body.inputs note.body.outputs root note.body.fee note.proof fold

/-- models `verify_anon_xfr_note`, abar_to_abar.rs:194-235 -/
def XfrExt.verifyNote [DecidableEq F] (E : XfrExt F Par Pf) (Y : FoldExt P F G Hs Mp) (par : Par) (note : XfrNote P F K Pf G Mp)
    (root : F) (h : Hs) : Res Unit :=
  if root ≠ note.body.root then .err else E.checkNote Y par note root h

/-- models `batch_verify_anon_xfr_note`, abar_to_abar.rs:237-298: whether it returns `Ok` -/
def XfrExt.batchVerify [DecidableEq F] (E : XfrExt F Par Pf) (Y : FoldExt P F G Hs Mp) (pars : List Par)
    (notes : List (XfrNote P F K Pf G Mp)) (roots : List F) (hs : List Hs) : Bool :=
  if (roots.zip notes).any (fun (x, y) => x ≠ y.body.root) then false
  else (((pars.zip notes).zip roots).zip hs).all (fun (((par, note), root), h) => decide (E.checkNote Y par note root h = .ok ()))

end

/-! ### Making notes -/

section
variable {P : SimFr.Params} {F AT Ep K Par Pf G Hs Mp : Type} [Field F] [ScalarRepr F] [DecidableEq F] [DecidableEq AT] [DecidableEq K]
variable (p : Rescue.Params F) (X : AnonExt F AT Ep K)

/-- models `nullify`, mod.rs:192-220 -/
def AnonExt.nullifier (kp : AKeyPair K) (amount : UInt64) (ty : AT) (uid : UInt64) : Option F := do
  let pk ← X.pkScalars kp.pub
  let sk ← skScalars kp.sec
  pure (nullify p pk sk (uid.toNat : F) (amount.toNat : F) (X.asScalar ty))

/-- what `check_asset_amount` reads of a record -/
def OpenAbarAt.held (o : OpenAbarAt F AT K) : Held AT := ⟨o.ty, o.amount.toNat⟩

/-- models `check_inputs`, mod.rs:56-64 -/
def checkInputs (ins : List (OpenAbarAt F AT K)) (kp : AKeyPair K) : Bool :=
  ins.all (fun i => !(i.leaf.isNone || decide (kp.pub ≠ i.pub)))

/-- models `check_roots`, mod.rs:107-127; indexing an empty list panics -/
def checkRoots (ins : List (OpenAbarAt F AT K)) : Res Unit :=
  match ins with
  | [] => .panic
  | i :: rest => do
    let l ← Res.ofOption i.leaf
    rest.foldlM (fun _ j => do
      let l' ← Res.ofOption j.leaf
      if l'.root ≠ l.root then .err else .ok ()) ()

/-- one input of `init_anon_xfr_note`, abar_to_abar.rs:94-122: the nullifier and the witness -/
def AnonExt.xfrInput (kp : AKeyPair K) (i : OpenAbarAt F AT K) : Res (F × Payer F) := do
  let l ← Res.unwrap i.leaf
  let nul ← Res.unwrap (X.nullifier p kp i.amount i.ty l.uid)
  pure (nul, ⟨(l.uid.toNat : F), (i.amount.toNat : F), X.asScalar i.ty, i.blind, l.path⟩)

/-- one output, abar_to_abar.rs:123-141: amount, blinding factor, scalar of the type and key, and the commitment
(`AnonAssetRecord::from_oabar` unwraps) -/
def AnonExt.xfrOutput (o : OpenAbarAt F AT K) : Res (F × (F × F × F × K)) := do
  let com ← Res.unwrap (X.commitment p o.toOpenAbar)
  pure (com, ((o.amount.toNat : F), o.blind, X.asScalar o.ty, o.pub))

/-- models `init_anon_xfr_note`, abar_to_abar.rs:78-162; `feeType` is the constant `FEE_TYPE` -/
def AnonExt.initXfr (feeType : AT) (ins outs : List (OpenAbarAt F AT K)) (fee : UInt32) (kp : AKeyPair K) : Res (XfrPre F K) :=
  if ins.isEmpty || outs.isEmpty then .err
  else if !checkInputs ins kp then .err
  else if !checkAmounts feeType (ins.map (·.held)) (outs.map (·.held)) fee.toNat then .err
  else do
    checkRoots ins
    let is ← ins.mapM (X.xfrInput p kp)
    let os ← outs.mapM (X.xfrOutput p)
    let first ← Res.unwrap (ins.head?.bind (·.leaf))
    let memos ← outs.mapM (fun o => Res.ofOption o.memo)
    pure ⟨⟨is.map (·.1), os.map (·.1), first.root, first.version, fee, memos⟩, is.map (·.2), os.map (·.2), fee, kp⟩

/-- one payee of `add_payees_witnesses`, abar_to_abar.rs:817-829: the scalars of the key -/
def AnonExt.payeeOf (t : F × F × F × K) : Res (Payee F) := do
  let pk ← Res.unwrap (X.pkScalars t.2.2.2)
  pure ⟨t.1, t.2.1, t.2.2.1, pk⟩

/-- the key pair as the folding prover reads it, address_folding.rs:106-135 -/
def AnonExt.foldKey (kp : AKeyPair K) : FoldKey := ⟨(X.coord kp.pub).1, (X.coord kp.pub).2, kp.sec⟩

variable [Fact P.r.Prime] [AddCommGroup G] [Module (ZMod P.r) G]

/-- models `finish_anon_xfr_note`, abar_to_abar.rs:164-192, with `prove_xfr`, l.300-331 -/
def AnonExt.finishXfr (V : XfrProver F Par Pf) (Y : FoldExt P F G Hs Mp) (M : FoldProver P F G Hs Mp) (dbg : Bool) (modulus : Bytes)
    (feeType : AT) (par : Par) (pre : XfrPre F K) (h : Hs) (rand : List (ZMod P.r × ZMod P.r)) (r : F) :
    Res (XfrNote P F K Pf G Mp) := do
  let (inst, wit) ← M.create p Y xfrFoldLabel h (X.foldKey pre.keypair) rand r
  let payees ← pre.payees.mapM X.payeeOf
  let pk ← Res.unwrap (X.pkScalars pre.keypair.pub)
  let sk ← Res.unwrap (skScalars pre.keypair.sec)
  let (_, cs) ← Res.unwrap (buildMultiXfr p (foldingCircuit p dbg P modulus wit) pre.payers payees pk sk (pre.fee.toNat : F)
    (X.asScalar feeType) CS.new)
  let proof ← V.prove par (xfrTranscript pre.payers.length pre.payees.length) cs.witness
  pure ⟨pre.body, proof, inst⟩

end

end Verif.Anon
