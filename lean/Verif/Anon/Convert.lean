import Verif.Anon.FoldingSound

/-!
Models of the circuits that convert between ordinary and anonymous records: `build_ar_to_abar_cs`
(api/src/anon_xfr/ar_to_abar.rs:183-224), `build_abar_to_ar_cs` (abar_to_ar.rs:306-398), `build_bar_to_abar_cs`
(bar_to_abar.rs:370-617) and `build_abar_to_bar_cs` (abar_to_bar.rs:533-832).

As in `Verif.Anon.Circuit` the builders return, in addition to the system, the variables of the witness.
`RistrettoScalar` is `ZMod P.r` for the parameters `P` of `SimFrParamsRistretto`, and `BigUint::from_bytes_le` of its
bytes is `ZMod.val`.  The computation of `compressed_limbs` (bar_to_abar.rs:456-465) is dead code and left out.
-/

namespace Verif.Anon

open Verif.Plonk Verif.SimFr Verif.StateComm

variable {F : Type} [Field F] [DecidableEq F] [ScalarRepr F] (p : Rescue.Params F)

/-! ### From a non-confidential record -/

/-- models `build_ar_to_abar_cs`, ar_to_abar.rs:183-224 -/
def buildArToAbar (t : Payee F) : Build F PayeeVars := do
  let amount ← newVar (fun _ => t.amount)
  preparePi amount
  let ty ← newVar (fun _ => t.ty)
  preparePi ty
  let blind ← newVar (fun _ => t.blind)
  let pk ← pkVars t.pk
  let com ← commitInCs p blind amount ty pk
  preparePi com
  pad
  pure ⟨amount, blind, ty, pk⟩

/-! ### To a non-confidential record -/

/-- the variables of the part that `build_abar_to_ar_cs` and `build_abar_to_bar_cs` share, with the nullifier and root -/
structure SpendVars where
  payer : PayerVars
  pk : PK Nat
  sk : SK Nat
  nul : Nat
  root : Nat

/-- abar_to_ar.rs:311-376 and abar_to_bar.rs:543-615: the commitment, the nullifier and the Merkle root of the record that
is spent -/
def spendOne (s : Payer F) (pk : PK F) (sk : SK F) : Build F SpendVars := do
  let v ← payerVars s
  let pkv ← pkVars pk
  let s0 ← newVar (fun _ => sk.1)
  let s1 ← newVar (fun _ => sk.2)
  let com ← commitInCs p v.blind v.amount v.ty pkv
  let ua ← linearCombine v.uid v.amount zeroVar zeroVar (2 ^ 64) 1 0 0
  let nul ← nullifyInCs p (s0, s1) ua v.ty pkv
  let root ← merkleRootVars p v.uid com v.path
  pure ⟨v, pkv, (s0, s1), nul, root⟩

/-- the variables of the witness of `build_abar_to_ar_cs` -/
structure AbarVars (α : Type) where
  spend : SpendVars
  fold : α

/-- models `build_abar_to_ar_cs`, abar_to_ar.rs:306-398; `folding` stands for `prove_address_folding_in_cs` -/
def buildAbarToAr {α : Type} (folding : PK Nat → SK Nat → Build F α) (s : Payer F) (pk : PK F) (sk : SK F) :
    Build F (AbarVars α) := do
  let v ← spendOne p s pk sk
  preparePi v.nul
  preparePi v.root
  preparePi v.payer.amount
  preparePi v.payer.ty
  let f ← folding v.pk v.sk
  pad
  pure ⟨v, f⟩

/-! ### Inspection of a delegated Schnorr proof -/

/-- models the parts of `DelegatedSchnorrProof` and `DelegatedSchnorrInspection` that the circuits read
(crypto/src/delegated_schnorr.rs:11-35): `committed_data_and_randomizer`, the first components of `response_scalars`,
the challenges, the randomness and the value of the state commitment -/
structure InspWitness (P : SimFr.Params) (F : Type) where
  data : List (ZMod P.r × ZMod P.r)
  resps : List (ZMod P.r)
  beta : ZMod P.r
  lambda : ZMod P.r
  r : F
  comm : F

/-- `s1_plus_lambda_s2`, bar_to_abar.rs:348-349 and 429; indexing panics on shorter lists -/
def combined2 {P : SimFr.Params} (lambda : ZMod P.r) (resps : List (ZMod P.r)) : Option (ZMod P.r) := do
  let a ← resps[0]?
  let b ← resps[1]?
  pure (a + b * lambda)

/-- the public inputs of the inspection, bar_to_abar.rs:336-356 and abar_to_bar.rs:321-343 -/
def inspectInput (P : SimFr.Params) (comm : F) (beta lambda : ZMod P.r) (resps : List (ZMod P.r)) : Option (List F) := do
  let s ← combined2 lambda resps
  pure ([comm] ++ (simOf P beta : Sim F).limbs ++ (simOf P lambda : Sim F).limbs ++
    (simOf P (beta * lambda) : Sim F).limbs ++ (simOf P s : Sim F).limbs)

/-- the variables of step 2 -/
structure InspVars (F : Type) where
  x : SimVar F
  y : SimVar F
  a : SimVar F
  b : SimVar F
  comm : Nat
  r : Nat
  beta : SimVar F
  lambda : SimVar F
  betaLambda : SimVar F
  s : SimVar F

/-- step 2, bar_to_abar.rs:407-442 and abar_to_bar.rs:617-654 -/
def inspAlloc (P : SimFr.Params) (wit : InspWitness P F) : Build F (InspVars F) := do
  let d0 ← liftM (wit.data[0]?)
  let d1 ← liftM (wit.data[1]?)
  let c ← liftM (combined2 wit.lambda wit.resps)
  let x ← allocBounded P (simOf P d0.1) 64
  let y ← allocBounded P (simOf P d1.1) 240
  let a ← allocWitness P (simOf P d0.2)
  let b ← allocWitness P (simOf P d1.2)
  let comm ← newVar (fun _ => wit.comm)
  let r ← newVar (fun _ => wit.r)
  let beta ← allocInput P (simOf P wit.beta)
  let lambda ← allocInput P (simOf P wit.lambda)
  let bl ← allocInput P (simOf P (wit.beta * wit.lambda))
  let s ← allocInput P (simOf P c)
  pure ⟨x.1, y.1, a.1, b.1, comm, r, beta, lambda, bl, s⟩

/-- steps 3 and 4, bar_to_abar.rs:444-514 and abar_to_bar.rs:656-726: the state commitment -/
def inspState (P : SimFr.Params) (v : InspVars F) : Build F Unit := do
  let words ← (chunks 5 (v.x.var ++ v.y.var ++ v.a.var ++ v.b.var)).mapM (packWordC P)
  let c0 ← liftM (words[0]?)
  let c1 ← liftM (words[1]?)
  let c2 ← liftM (words[2]?)
  let c3 ← liftM (words[3]?)
  let h1 ← rescueCircuit p (c0, c1, c2, c3)
  let c4 ← liftM (words[4]?)
  let h2 ← rescueCircuit p (h1.1, c4, v.r, zeroVar)
  equalV h2.1 v.comm

/-- step 5, bar_to_abar.rs:516-530 and abar_to_bar.rs:728-742 -/
def inspEquation (dbg : Bool) (P : SimFr.Params) (v : InspVars F) : Build F Unit := do
  let bx ← v.beta.mul P v.x
  let bly ← v.betaLambda.mul P v.y
  let lb ← v.lambda.mul P v.b
  let rhs ← bx.add P bly
  let rhs ← rhs.add P lb
  let t ← v.s.sub P v.a
  let eqn ← rhs.sub P t
  eqn.enforceZero dbg P

/-- the value of six limbs in the native field, bar_to_abar.rs:534-557 -/
def recombine (P : SimFr.Params) (vs : List Nat) : Build F Nat := do
  let v0 ← liftM (vs[0]?)
  let v1 ← liftM (vs[1]?)
  let v2 ← liftM (vs[2]?)
  let v3 ← liftM (vs[3]?)
  let sum ← linearCombine v0 v1 v2 v3 1 (2 ^ P.bits) (2 ^ (P.bits * 2)) (2 ^ (P.bits * 3))
  let v4 ← liftM (vs[4]?)
  let v5 ← liftM (vs[5]?)
  linearCombine sum v4 v5 zeroVar 1 (2 ^ (P.bits * 4)) (2 ^ (P.bits * 5)) 0

/-- step 6, bar_to_abar.rs:532-586 and abar_to_bar.rs:744-798 -/
def inspValues (P : SimFr.Params) (v : InspVars F) (amount ty : Nat) : Build F Unit := do
  let x ← recombine P v.x.var
  let y ← recombine P v.y.var
  equalV x amount
  equalV y ty

/-- steps 2 to 6 -/
def inspection (dbg : Bool) (P : SimFr.Params) (wit : InspWitness P F) (amount ty : Nat) : Build F (InspVars F) := do
  let v ← inspAlloc P wit
  inspState p P v
  inspEquation dbg P v
  inspValues P v amount ty
  pure v

/-- the public variables of the inspection, bar_to_abar.rs:599-612 and abar_to_bar.rs:804-817 -/
def inspPublic (P : SimFr.Params) (v : InspVars F) : Build F Unit := do
  preparePi v.comm
  publicLimbs P v.beta
  publicLimbs P v.lambda
  publicLimbs P v.betaLambda
  publicLimbs P v.s

/-! ### From a confidential record -/

/-- the variables of the witness of `build_bar_to_abar_cs` -/
structure BarVars (F : Type) where
  out : PayeeVars
  insp : InspVars F

/-- models `build_bar_to_abar_cs`, bar_to_abar.rs:370-617 -/
def buildBarToAbar (dbg : Bool) (P : SimFr.Params) (t : Payee F) (wit : InspWitness P F) : Build F (BarVars F) := do
  let amount ← newVar (fun _ => t.amount)
  let ty ← newVar (fun _ => t.ty)
  let blind ← newVar (fun _ => t.blind)
  let pk ← pkVars t.pk
  let v ← inspection p dbg P wit amount ty
  let com ← commitInCs p blind amount ty pk
  preparePi com
  inspPublic P v
  pad
  pure ⟨⟨amount, blind, ty, pk⟩, v⟩

/-! ### To a confidential record -/

/-- the variables of the witness of `build_abar_to_bar_cs` -/
structure AbarBarVars (F α : Type) where
  spend : SpendVars
  insp : InspVars F
  fold : α

/-- models `build_abar_to_bar_cs`, abar_to_bar.rs:533-832 -/
def buildAbarToBar {α : Type} (folding : PK Nat → SK Nat → Build F α) (dbg : Bool) (P : SimFr.Params) (s : Payer F)
    (pk : PK F) (sk : SK F) (wit : InspWitness P F) : Build F (AbarBarVars F α) := do
  let v ← spendOne p s pk sk
  let i ← inspection p dbg P wit v.payer.amount v.payer.ty
  preparePi v.nul
  preparePi v.root
  inspPublic P i
  let f ← folding v.pk v.sk
  pad
  pure ⟨v, i, f⟩

end Verif.Anon
