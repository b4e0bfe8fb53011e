import Verif.Anon.Compare
import Verif.Anon.Keys
import Verif.Anon.TransferRun
import Verif.Crypto.StateComm
import Verif.SimFr.Uniform

/-!
Model of `prove_address_folding_in_cs` and `prepare_verifier_input`, api/src/anon_xfr/address_folding.rs:177-620.

The simulated field has parameters `P` (the code: secq256k1, whose modulus is the base field of secp256k1); its elements
are `ZMod P.r` and `Into<BigUint>` is `ZMod.val`.
-/

namespace Verif.Anon

open Verif.Plonk Verif.SimFr Verif.StateComm Verif.Xfr

/-- models `AXfrAddressFoldingWitness`, address_folding.rs:38-52, as far as the circuit reads it: the coordinates of the
public key and the secret key as `BigUint`s, the challenges, the second components of `committed_data_and_randomizer`,
the first components of `response_scalars`, the randomness and the value of the state commitment -/
structure FoldWitness (P : SimFr.Params) (F : Type) where
  x : Nat
  y : Nat
  s : Nat
  beta : ZMod P.r
  lambda : ZMod P.r
  rands : List (ZMod P.r)
  resps : List (ZMod P.r)
  r : F
  comm : F

/-- the closure `bytes_to_bits`, address_folding.rs:192-203 -/
def byteBits (v : UInt8) : List Bool :=
  [v &&& 1 != 0, v &&& 2 != 0, v &&& 4 != 0, v &&& 8 != 0, v &&& 16 != 0, v &&& 32 != 0, v &&& 64 != 0, v &&& 128 != 0]

/-- models `SECP256K1Scalar::get_field_size_le_bytes`, algebra/src/secp256k1.rs:243-250 -/
def secpOrderBytes : Bytes :=
  [0x41, 0x41, 0x36, 0xd0, 0x8c, 0x5e, 0xd2, 0xbf, 0x3b, 0xa0, 0x48, 0xaf, 0xe6, 0xdc, 0xae, 0xba, 0xfe, 0xff, 0xff,
    0xff, 0xff, 0xff, 0xff, 0xff, 0xff, 0xff, 0xff, 0xff, 0xff, 0xff, 0xff, 0xff]

section
variable {F : Type} [Field F]

/-- `SimFr::from(&BigUint::from(k))` -/
def simOf (P : SimFr.Params) (k : ZMod P.r) : Sim F := ofBig P k.val

/-- `combined_response_scalar`, address_folding.rs:424-426 and 612-614; indexing panics on shorter lists -/
def combinedResponse {P : SimFr.Params} (lambda : ZMod P.r) (resps : List (ZMod P.r)) : Option (ZMod P.r) := do
  let a ← resps[0]?
  let b ← resps[1]?
  let c ← resps[2]?
  pure (a + b * lambda + c * lambda * lambda)

/-- models `prepare_verifier_input`, address_folding.rs:584-620 -/
def verifierInput (P : SimFr.Params) (comm : F) (beta lambda : ZMod P.r) (resps : List (ZMod P.r)) : Option (List F) := do
  let resp ← combinedResponse lambda resps
  pure ([comm] ++ (simOf P lambda : Sim F).limbs ++ (simOf P (lambda * lambda) : Sim F).limbs ++
    (simOf P (1 * beta) : Sim F).limbs ++ (simOf P (lambda * beta) : Sim F).limbs ++
    (simOf P (lambda * lambda * beta) : Sim F).limbs ++ (simOf P resp : Sim F).limbs)

/-- the loops of address_folding.rs:366-375 -/
def equalAll (l l' : List Nat) : Build F Unit := (l.zip l').foldlM (fun _ e => equalV e.1 e.2) ()

/-- one packed word, address_folding.rs:493-521.  The two `chunks` run over lists of the same length, so `limbs.len()`
is the length of the chunk of variables. -/
def packWordC (P : SimFr.Params) (vs : List Nat) : Build F Nat := do
  let sum ← linearCombine (vs[0]?.getD zeroVar) (vs[1]?.getD zeroVar) (vs[2]?.getD zeroVar) (vs[3]?.getD zeroVar)
    1 (2 ^ (P.bits * 1)) (2 ^ (P.bits * 2)) (2 ^ (P.bits * 3))
  if vs.length = 5 then linearCombine sum (vs[4]?.getD zeroVar) zeroVar zeroVar 1 (2 ^ (P.bits * 4)) 0 0
  else pure sum

/-- the loop of address_folding.rs:543-550 -/
def chainC (p : Rescue.Params F) : Nat → List Nat → Build F Nat
  | h, [] => pure h
  | h, a :: b :: c :: rest => do
    let o ← rescueCircuit p (h, a, b, c)
    chainC p o.1 rest
  | _, _ => failure

/-- address_folding.rs:529-550 -/
def spongeC (p : Rescue.Params F) (words : List Nat) (r : Nat) : Build F Nat :=
  match resize zeroVar (words ++ [r]) with
  | a :: b :: c :: d :: rest => do
    let o ← rescueCircuit p (a, b, c, d)
    chainC p o.1 rest
  | _ => failure

/-- steps 6 and 7, address_folding.rs:460-553: the state commitment over the limbs `vars`; the variables of the
commitment and of its randomness -/
def stateCommC (p : Rescue.Params F) (P : SimFr.Params) (r comm : F) (vars : List Nat) : Build F (Nat × Nat) := do
  let words ← (chunks (perWord P) vars).mapM (packWordC P)
  let rv ← newVar (fun _ => r)
  let cv ← newVar (fun _ => comm)
  let h ← spongeC p words rv
  equalV cv h
  pure (cv, rv)

/-- the loops of address_folding.rs:557-575: make the limbs public -/
def publicLimbs (P : SimFr.Params) (a : SimVar F) : Build F Unit :=
  (List.range P.limbs).foldlM (fun _ i => do
    let v ← liftM (a.var[i]?)
    preparePi v) ()

variable [DecidableEq F] [ScalarRepr F]

/-- steps 1 to 4, address_folding.rs:183-375: the key scalars are the coordinates and the secret key, which is below the
modulus with the bytes `modulus` -/
def foldKeys (P : SimFr.Params) (modulus : Bytes) (wit : FoldWitness P F) (pk : PK Nat) (sk : SK Nat) :
    Build F (SimVar F × SimVar F × SimVar F) := do
  let a0 ← rangeCheck pk.1 248
  let a1 ← rangeCheck pk.2.1 248
  let a2 ← rangeCheck pk.2.2 16
  let c0 ← rangeCheck sk.1 248
  let c1 ← rangeCheck sk.2 8
  lessThanModulus (c0 ++ c1) ((leBytes 32 wit.s).flatMap byteBits) (modulus.flatMap byteBits)
  let x ← allocWitness P (ofBig P wit.x)
  let y ← allocWitness P (ofBig P wit.y)
  let s ← allocWitness P (ofBig P wit.s)
  if (x.2 ++ y.2).length ≠ (a0 ++ a1 ++ a2).length ∨ s.2.length ≠ (c0 ++ c1).length then failure
  else do
    equalAll (x.2 ++ y.2) (a0 ++ a1 ++ a2)
    equalAll s.2 (c0 ++ c1)
    pure (x.1, y.1, s.1)

/-- the variables of step 5 -/
structure EqVars (F : Type) where
  r0 : SimVar F
  r1 : SimVar F
  r2 : SimVar F
  l1 : SimVar F
  l2 : SimVar F
  b0 : SimVar F
  b1 : SimVar F
  b2 : SimVar F
  resp : SimVar F

/-- the allocations of step 5, address_folding.rs:377-431 -/
def foldAlloc (P : SimFr.Params) (wit : FoldWitness P F) : Build F (EqVars F) := do
  let l1 ← allocInput P (simOf P wit.lambda)
  let l2 ← allocInput P (simOf P (wit.lambda * wit.lambda))
  let b0 ← allocInput P (simOf P (1 * wit.beta))
  let b1 ← allocInput P (simOf P (wit.lambda * wit.beta))
  let b2 ← allocInput P (simOf P (wit.lambda * wit.lambda * wit.beta))
  let e0 ← liftM (wit.rands[0]?)
  let r0 ← allocWitness P (simOf P e0)
  let e1 ← liftM (wit.rands[1]?)
  let r1 ← allocWitness P (simOf P e1)
  let e2 ← liftM (wit.rands[2]?)
  let r2 ← allocWitness P (simOf P e2)
  let c ← liftM (combinedResponse wit.lambda wit.resps)
  let resp ← allocInput P (simOf P c)
  pure ⟨r0.1, r1.1, r2.1, l1, l2, b0, b1, b2, resp⟩

/-- the equation of step 5, address_folding.rs:433-458 -/
def foldEquation (dbg : Bool) (P : SimFr.Params) (x y s : SimVar F) (e : EqVars F) : Build F Unit := do
  let lhs ← x.mul P e.b0
  let t ← y.mul P e.b1
  let lhs ← t.add P lhs
  let t ← e.r1.mul P e.l1
  let lhs ← t.add P lhs
  let t ← s.mul P e.b2
  let lhs ← t.add P lhs
  let t ← e.r2.mul P e.l2
  let lhs ← t.add P lhs
  let rhs ← e.resp.sub P e.r0
  let res ← lhs.sub P rhs
  res.enforceZero dbg P

/-- the variables of the witness of the folding circuit: the limbs of the three numbers and the three randomizers, and
the randomness of the state commitment; returned by the model only -/
structure FoldVars where
  x : List Nat
  y : List Nat
  s : List Nat
  r0 : List Nat
  r1 : List Nat
  r2 : List Nat
  r : Nat

/-- models `prove_address_folding_in_cs`, address_folding.rs:177-581; the code returns nothing, the model the variables
of the witness -/
def foldingCircuit (p : Rescue.Params F) (dbg : Bool) (P : SimFr.Params) (modulus : Bytes) (wit : FoldWitness P F)
    (pk : PK Nat) (sk : SK Nat) : Build F FoldVars := do
  let k ← foldKeys P modulus wit pk sk
  let e ← foldAlloc P wit
  foldEquation dbg P k.1 k.2.1 k.2.2 e
  let c ← stateCommC p P wit.r wit.comm
    (k.1.var ++ k.2.1.var ++ k.2.2.var ++ e.r0.var ++ e.r1.var ++ e.r2.var)
  preparePi c.1
  publicLimbs P e.l1
  publicLimbs P e.l2
  publicLimbs P e.b0
  publicLimbs P e.b1
  publicLimbs P e.b2
  publicLimbs P e.resp
  pure ⟨k.1.var, k.2.1.var, k.2.2.var, e.r0.var, e.r1.var, e.r2.var, c.2⟩

end

end Verif.Anon
