import Verif.Anon.ConvertUniform
import Verif.Anon.TransferRun
import Verif.Snark.Model
import Verif.Algebra.PointCodec

/-!
Model of the parameters of the anonymous part: api/src/setup.rs, api/src/gen-params.rs, the byte form of the commitment key
(plonk/src/poly_commit/kzg_poly_com.rs:149-201) and `shrink_to_verifier_only` of the constraint system
(plonk/src/plonk/constraint_system/turbo.rs:186-210).

The embedded files (api/src/parameters.rs) are arguments.  `bincode` is a parameter here, a pair of functions for each type; the
functions themselves are in Verif/Setup/FileCodec.lean.  Points are read by `from_unchecked_bytes` of the curve library, a parameter
too.
-/

namespace Verif.Setup

open Verif.Poly Verif.Plonk Verif.Snark Verif.Anon
open Verif.AnonCreds (Pairing)

/-! ### Bytes of a commitment key -/

/-- the unchecked encoding of a group of arkworks: `unchecked_size`, `to_unchecked_bytes` and `from_unchecked_bytes`
(algebra/src/bls12_381.rs:374-412 and 748-786); `none` is an error of the curve library -/
structure Raw (G : Type) where
  size : Nat
  ser : G → Bytes
  de : Bytes → Option G

/-- what is assumed of it -/
structure Raw.Laws {G : Type} (R : Raw G) : Prop where
  len : ∀ g, (R.ser g).length = R.size
  de_ser : ∀ g, R.de (R.ser g) = some g

section
variable {F G1 G2 Gt : Type}

/-- models `to_unchecked_bytes`, kzg_poly_com.rs:150-164; `len() as u32` drops the upper bits, as does `leBytes 4` -/
def toUnchecked (R1 : Raw G1) (R2 : Raw G2) (pp : Params G1 G2) : Bytes :=
  leBytes 4 pp.group1.length ++ leBytes 4 pp.group2.length ++ pp.group1.flatMap R1.ser ++ pp.group2.flatMap R2.ser

/-- the loops of `from_unchecked_bytes` (kzg_poly_com.rs:186-196) and `load_lagrange_params` (setup.rs:383-385): `count` points
from the offset `start` -/
def readPoints {G : Type} (R : Raw G) (b : Bytes) (start : Nat) : Nat → Nat → Res (List G)
  | _, 0 => .ok []
  | i, count + 1 => do
    let s ← Codec.slice b (start + R.size * i) (start + R.size * (i + 1))
    let p ← Res.ofOption (R.de s)
    let ps ← readPoints R b start (i + 1) count
    pure (p :: ps)

/-- models `from_unchecked_bytes`, kzg_poly_com.rs:167-201 -/
def fromUnchecked (R1 : Raw G1) (R2 : Raw G2) (b : Bytes) : Res (Params G1 G2) :=
  if b.length < 8 then .err
  else do
    let len1 := ofLE (← Codec.slice b 0 4)
    let len2 := ofLE (← Codec.slice b 4 8)
    let bytes1 ← Codec.slice b 8 b.length
    let bytes2 ← Codec.slice b (8 + R1.size * len1) b.length
    let p1 ← readPoints R1 bytes1 0 0 len1
    let p2 ← readPoints R2 bytes2 0 0 len2
    pure ⟨p1, p2⟩

/-- models `load_lagrange_params`, setup.rs:372-395: a point that does not decode gives `None`, a short file a panic -/
def loadLagrange (R1 : Raw G1) (bases : Nat → Option Bytes) (size : Nat) : Res (Option (Params G1 G2)) :=
  match bases size with
  | none => .ok none
  | some b => do
    let len := ofLE (← Codec.slice b 0 4)
    match readPoints R1 b 4 0 len with
    | .ok v => .ok (some ⟨v, []⟩)
    | .err => .ok none
    | .panic => .panic

/-! ### Parameters -/

/-- a constraint system of the parameters: a full one, or what `shrink_to_verifier_only` leaves of it
(turbo.rs:190-210): the number of variables, a `usize`, and the size, all the lists being empty -/
inductive ParCs (F : Type) where
  | full (cs : CS F)
  | shrunk (numVars : UInt64) (size : Nat)

/-- `size()`, turbo.rs; the model keeps no separate counter for full systems -/
def ParCs.size : ParCs F → Nat
  | .full cs => cs.gates.length
  | .shrunk _ n => n

/-- `is_verifier_only`, turbo.rs:186-188 -/
def ParCs.verifierOnly : ParCs F → Bool
  | .full _ => false
  | .shrunk _ _ => true

/-- `shrink_to_verifier_only`, turbo.rs:190-210.  The number of variables of a full system has no bound in the model; it is taken to be
a `usize` here. -/
def ParCs.shrink : ParCs F → ParCs F
  | .full cs => .shrunk (UInt64.ofNat cs.numVars) cs.gates.length
  | .shrunk v n => .shrunk v n

/-- models `ProverParams`, setup.rs:49-60 -/
structure ProverParams (F G1 G2 : Type) where
  pcs : Params G1 G2
  lagrange : Option (Params G1 G2)
  cs : CS F
  pk : Snark.PK G1 F

/-- models `VerifierParams`, setup.rs:62-71 -/
structure VerifierParams (F G1 G2 : Type) where
  pcs : Params G1 G2
  cs : ParCs F
  vk : VK G1 F

/-- models `VerifierParamsSplitSpecific`, setup.rs:80-87; `VerifierParamsSplitCommon` is the commitment key alone -/
structure Specific (F G1 : Type) where
  cs : ParCs F
  vk : VK G1 F

/-- models `From<ProverParams>`, setup.rs:499-507 -/
def VerifierParams.ofProver (q : ProverParams F G1 G2) : VerifierParams F G1 G2 := ⟨q.pcs, .full q.cs, q.pk.vk⟩

/-- models `VerifierParams::shrink`, setup.rs:476-482 -/
def VerifierParams.shrink (v : VerifierParams F G1 G2) : Res (VerifierParams F G1 G2) := do
  let pcs ← Poly.shrink v.pcs
  pure ⟨pcs, v.cs.shrink, v.vk⟩

/-- models `split`, setup.rs:485-495 -/
def VerifierParams.split (v : VerifierParams F G1 G2) : Res (Params G1 G2 × Specific F G1) := do
  let pcs ← Poly.shrink v.pcs
  pure (pcs, ⟨v.cs.shrink, v.vk⟩)

/-- the PLONK verifier with these parameters: it reads the constraint system only through its size, which is the index of the
oracle (plonk/src/plonk/verifier.rs:18-28, `compute_challenges`) -/
def VerifierParams.verify [Field F] [DecidableEq F] [AddCommGroup G1] [AddCommGroup G2] [Module F G1] [Module F G2] [DecidableEq Gt]
    [AddCommGroup Gt] [Module F Gt] (v : VerifierParams F G1 G2) {n : Nat} (_h : v.cs.size = n) (O : Oracle F G1 n) (P : Pairing F G1 G2 Gt)
    (tr : Tr F G1) (pi : List F) (proof : Snark.Proof G1 F) : Res Unit :=
  verifier O P v.pcs tr v.vk pi proof

end

/-! ### Circuits of the default witnesses -/

section
variable {F : Type} [Field F] [DecidableEq F] [ScalarRepr F] (p : Rescue.Params F)

/-- the node of `AXfrWitness::fake`, api/src/anon_xfr/abar_to_abar.rs:377-382, and setup.rs:258-263, 337-342 -/
def fakeNode : MTNode F := ⟨0, 0, 0, 0⟩

/-- the payer of `AXfrWitness::fake`, abar_to_abar.rs:383-390, and setup.rs:264-271, 343-350; the secret key of the witness is
not read by the circuits, which take the key pair from the folding witness -/
def fakePayer (depth : Nat) : Payer F := ⟨0, 0, 0, 0, List.replicate depth fakeNode⟩

/-- the payee of `AXfrWitness::fake`, abar_to_abar.rs:391-396, and setup.rs:307-312; `pk` are the words of its key -/
def fakePayee (pk : Anon.PK F) : Payee F := ⟨0, 0, 0, pk⟩

/-- models `AXfrAddressFoldingWitness::default`, address_folding.rs:53-92; the coordinates that arkworks gives the point at infinity
are zero and one -/
def defaultFold (P : SimFr.Params) (F : Type) [Field F] : FoldWitness P F :=
  ⟨0, 1, 0, 0, 0, List.replicate 3 0, List.replicate 3 0, 0, 0⟩

/-- the words of the default key pair -/
def defaultPk (F : Type) [Field F] : Anon.PK F := Anon.Spec.pkWords 0 1

/-- the system of `ProverParams::new`, setup.rs:141-152 -/
def transferCs (dbg : Bool) (P : SimFr.Params) (modulus : Bytes) (feeType : F) (payers payees depth : Nat) : Option (CS F) :=
  (buildMultiXfr p (foldingCircuit p dbg P modulus (defaultFold P F)) (List.replicate payers (fakePayer depth))
    (List.replicate payees (fakePayee (defaultPk F))) (defaultPk F) (Anon.Spec.skWords 0) 0 feeType CS.new).map (·.2)

/-- the system of `ar_to_abar_params`, setup.rs:302-314; `pk` are the words of the generated key -/
def arToAbarCs (pk : Anon.PK F) : Option (CS F) := (buildArToAbar p (fakePayee pk) CS.new).map (·.2)

/-- the system of `bar_to_abar_params`, setup.rs:174-215 -/
def barToAbarCs (dbg : Bool) (Q : SimFr.Params) (pk : Anon.PK F) : Option (CS F) :=
  (buildBarToAbar p dbg Q (fakePayee pk) (InspWitness.default Q F) CS.new).map (·.2)

/-- the system of `abar_to_ar_params`, setup.rs:331-354 -/
def abarToArCs (dbg : Bool) (P : SimFr.Params) (modulus : Bytes) (depth : Nat) : Option (CS F) :=
  (buildAbarToAr p (foldingCircuit p dbg P modulus (defaultFold P F)) (fakePayer depth) (defaultPk F) (Anon.Spec.skWords 0)
    CS.new).map (·.2)

/-- the system of `abar_to_bar_params`, setup.rs:230-282 -/
def abarToBarCs (dbg : Bool) (P Q : SimFr.Params) (modulus : Bytes) (depth : Nat) : Option (CS F) :=
  (buildAbarToBar p (foldingCircuit p dbg P modulus (defaultFold P F)) dbg Q (fakePayer depth) (defaultPk F)
    (Anon.Spec.skWords 0) (InspWitness.default Q F) CS.new).map (·.2)

end

/-! ### Making and loading parameters -/

section
variable {F G1 G2 : Type} [Field F] [DecidableEq F] [AddCommGroup G1] [AddCommGroup G2] [Module F G1] [Module F G2]

/-- what setup reads: the embedded reference string and Lagrange bases, the encodings of points, and the parts of the indexer
that are parameters of its model -/
structure Env (F G1 G2 : Type) where
  srs : Option Bytes
  bases : Nat → Option Bytes
  raw1 : Raw G1
  raw2 : Raw G2
  msm : List F → List G1 → Res G1
  rootOf : Nat → Res (Option F)
  k : List F

/-- the common end of the functions that make prover parameters, setup.rs:154-166, 217-229, 283-296, 316-329, 356-370 -/
def Env.finish (E : Env F G1 G2) (srs : Bytes) (cs : CS F) : Res (ProverParams F G1 G2) := do
  let pcs ← fromUnchecked E.raw1 E.raw2 srs
  let lag ← loadLagrange E.raw1 E.bases cs.gates.length
  let pk ← unwrapRes (indexer E.msm pcs lag E.rootOf E.k cs)
  pure ⟨pcs, lag, cs, pk⟩

/-- models `ProverParams::new` (setup.rs:131-167) and `bar_to_abar_params` (l.170-229): the reference string is looked up before
the circuit is built -/
def Env.proverFirst (E : Env F G1 G2) (circuit : Option (CS F)) : Res (ProverParams F G1 G2) := do
  let srs ← Res.ofOption E.srs
  let cs ← Res.unwrap circuit
  E.finish srs cs

/-- models `abar_to_bar_params`, `ar_to_abar_params`, `abar_to_ar_params`, setup.rs:232-371: the circuit is built first -/
def Env.proverLast (E : Env F G1 G2) (circuit : Option (CS F)) : Res (ProverParams F G1 G2) := do
  let cs ← Res.unwrap circuit
  let srs ← Res.ofOption E.srs
  E.finish srs cs

/-- a pair of `bincode` functions -/
structure Bin (T : Type) where
  ser : T → Option Bytes
  de : Bytes → Option T

/-- what was written is read back -/
def Bin.Lawful {T : Type} (B : Bin T) : Prop := ∀ x b, B.ser x = some b → B.de b = some x

/-- sizes that occur -/
def keyFits {G1 G2 : Type} (pp : Params G1 G2) : Prop := pp.group1.length < 2 ^ 32 ∧ pp.group2.length < 2 ^ 32

/-- sizes that occur: a system cut down for verifiers, and lists and numbers in the range of the machine -/
structure Specific.Fits {F G1 : Type} (x : Specific F G1) : Prop where
  cs : ∃ v n, x.cs = .shrunk v n ∧ n < 2 ^ 64
  cmQ : x.vk.cmQ.length < 2 ^ 32
  cmS : x.vk.cmS.length < 2 ^ 32
  k : x.vk.k.length < 2 ^ 32
  size : x.vk.csSize < 2 ^ 64
  pubCons : x.vk.pubCons.length < 2 ^ 32
  index : ∀ i ∈ x.vk.pubCons, i < 2 ^ 64
  lagrange : x.vk.lagrange.length < 2 ^ 32

/-- parameters of such sizes are written -/
def Bin.Writes {F G1 G2 : Type} (B : Bin (VerifierParams F G1 G2)) : Prop :=
  ∀ v : VerifierParams F G1 G2, keyFits v.pcs → Specific.Fits ⟨v.cs, v.vk⟩ → ∃ b, B.ser v = some b

/-- `TREE_DEPTH`, api/src/anon_xfr/mod.rs:226 -/
def treeDepth : Nat := 20

/-- `MAX_ANONYMOUS_RECORD_NUMBER`, setup.rs:94 -/
def maxRecords : Nat := 6

/-- models `VerifierParams::create`, setup.rs:399-409; `circuit` is the system of setup.rs:141-152 -/
def Env.create (E : Env F G1 G2) (circuit : Nat → Nat → Nat → Option (CS F)) (payers payees : Nat) (depth : Option Nat) :
    Res (VerifierParams F G1 G2) := do
  let q ← E.proverFirst (circuit payers payees (depth.getD treeDepth))
  pure (.ofProver q)

/-- the `bincode` functions that the files of anonymous transfers need -/
structure FileBins (F G1 G2 : Type) where
  common : Bin (Params G1 G2)
  specific : Bin (Specific F G1)
  table : Bin (List (List Bytes))

/-- parameters of the sizes that occur are written, the specific ones to an array that can be an entry of the table -/
structure FileBins.Writes {F G1 G2 : Type} (B : FileBins F G1 G2) : Prop where
  common : ∀ pp, keyFits pp → ∃ b, B.common.ser pp = some b
  specific : ∀ x : Specific F G1, x.Fits → ∃ b, B.specific.ser x = some b ∧ b.length < 2 ^ 64
  table : ∀ t, t.length < 2 ^ 32 → (∀ row ∈ t, row.length < 2 ^ 32 ∧ ∀ b ∈ row, b.length < 2 ^ 64) → ∃ b, B.table.ser t = some b

/-- models `gen_transfer_vk`, gen-params.rs:73-118: the bytes of the two files.  The maps that the parallel iterators are
collected in and that are emptied in the order of the keys are left out. -/
def Env.genTransfer (E : Env F G1 G2) (B : FileBins F G1 G2) (circuit : Nat → Nat → Nat → Option (CS F)) : Res (Bytes × Bytes) := do
  let v ← unwrapRes (E.create circuit 1 1 (some treeDepth))
  let (common, _) ← unwrapRes v.split
  let specials ← (List.range' 1 maxRecords).mapM fun i =>
    (List.range' 1 maxRecords).mapM fun j => do
      let v ← unwrapRes (E.create circuit i j (some treeDepth))
      let (_, special) ← unwrapRes v.split
      Res.unwrap (B.specific.ser special)
  let file1 ← Res.unwrap (B.common.ser common)
  let file2 ← Res.unwrap (B.table.ser specials)
  pure (file1, file2)

/-- `v[n - 1]`, a panic for zero and beyond the end -/
def indexBefore {T : Type} (v : List T) (n : Nat) : Res T :=
  match n with
  | 0 => .panic
  | i + 1 => Res.unwrap v[i]?

/-- models `VerifierParams::load`, setup.rs:412-433; the arguments `common` and `specific` are the embedded files -/
def Env.load (E : Env F G1 G2) (B : FileBins F G1 G2) (circuit : Nat → Nat → Nat → Option (CS F)) (common specific : Option Bytes)
    (payers payees : Nat) : Res (VerifierParams F G1 G2) :=
  if payees > maxRecords ∨ payers > maxRecords then .err
  else match common, specific with
  | some c, some s => do
    let pcs ← Res.ofOption (B.common.de c)
    let specials ← Res.unwrap (B.table.de s)
    let row ← indexBefore specials payers
    let bytes ← indexBefore row payees
    let special ← Res.ofOption (B.specific.de bytes)
    pure ⟨pcs, special.cs, special.vk⟩
  | _, _ => E.create circuit payers payees none

/-- models `gen_abar_to_bar_vk` and its three siblings, gen-params.rs:121-189: the bytes of the file -/
def genConversion (B : Bin (VerifierParams F G1 G2)) (q : Res (ProverParams F G1 G2)) : Res Bytes := do
  let q ← unwrapRes q
  let v ← unwrapRes (VerifierParams.ofProver q).shrink
  Res.unwrap (B.ser v)

/-- models `VerifierParams::abar_to_bar_params` and its three siblings, setup.rs:436-473 -/
def loadConversion (B : Bin (VerifierParams F G1 G2)) (file : Option Bytes) (q : Res (ProverParams F G1 G2)) :
    Res (VerifierParams F G1 G2) :=
  match file with
  | some b => Res.ofOption (B.de b)
  | none => do
    let q ← q
    pure (.ofProver q)

end

end Verif.Setup
