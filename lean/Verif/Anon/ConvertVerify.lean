import Verif.Anon.ConvertProps
import Verif.Xfr.Record

/-!
The verifiers of the four conversions between ordinary and anonymous records: `ar_to_abar.rs`, `abar_to_ar.rs`,
`bar_to_abar.rs`, `abar_to_bar.rs`, with `verify_address_folding` (`address_folding.rs`).

The PLONK verifier, signatures, serialisation, point decompression and the Bulletproofs verifier are parameters.  The
delegated Schnorr verifier is the one of `Verif/Crypto/DelegatedSchnorr.lean`, the public inputs are those of
`Verif/Anon/Convert.lean` and `Verif/Anon/Folding.lean`.
-/

namespace Verif.Anon

open Verif.DelegatedSchnorr (Tr Msg)
open Verif.Xfr (BlindAssetRecord splitU64)

/-! ### Address folding -/

/-- models `AXfrAddressFoldingInstance`, address_folding.rs:22-32 -/
structure FoldInst (P : SimFr.Params) (F G Mp : Type) where
  schnorr : DelegatedSchnorr.Proof (ZMod P.r) G F
  coms : List G
  mul : Mp

/-- What `verify_address_folding` calls.  `scalarMul` is `ScalarMulProof::verify` (crypto/src/bulletproofs/scalar_mul.rs:323-361)
on a transcript that was created with a label and holds the hash, given at least three commitments: `none` if the proof is
rejected, otherwise the transcript it leaves. -/
structure FoldExt (P : SimFr.Params) (F G Hs Mp : Type) where
  gens : ChaumPedersen.Gens G
  oracle : Tr (ZMod P.r) G F → ZMod P.r
  scalarMul : String → Hs → List G → Mp → Option (Tr (ZMod P.r) G F)

section
variable {P : SimFr.Params} {F G Hs Mp : Type} [AddCommGroup G] [DecidableEq G]

/-- models `verify_address_folding`, address_folding.rs:150-174.  `ScalarMulProof::verify` indexes the first three commitments
(scalar_mul.rs:340-342) and panics when there are fewer. -/
def FoldExt.verify [Fact P.r.Prime] [Module (ZMod P.r) G] (E : FoldExt P F G Hs Mp) (label : String) (h : Hs)
    (inst : FoldInst P F G Mp) : Res (ZMod P.r × ZMod P.r) :=
  if inst.coms.length < 3 then .panic
  else do
    let tr ← Res.ofOption (E.scalarMul label h inst.coms inst.mul)
    let out ← DelegatedSchnorr.verify E.gens E.oracle tr inst.coms inst.schnorr
    pure (out.1, out.2.1)

variable [Field F]

/-- models `prepare_verifier_input`, address_folding.rs:584-620, which indexes the first three responses -/
def FoldInst.input (inst : FoldInst P F G Mp) (c : ZMod P.r × ZMod P.r) : Res (List F) :=
  Res.unwrap (verifierInput P inst.schnorr.comm c.1 c.2 (inst.schnorr.responses.map (·.1)))

end

/-! ### The conversions -/

/-- What the verifiers call: generators of the Pedersen commitments over Ristretto, point decompression, the number that
`AssetType::as_scalar` (api/src/xfr/structs.rs:44-66) reads from the hash of a type, the challenges of the delegated Schnorr
proof, the PLONK verifier for given parameters, transcript label and public inputs, and signatures. -/
structure ConvExt (S : Xfr.Types) (Q : SimFr.Params) (F Par Pf : Type) where
  gens : ChaumPedersen.Gens S.G
  decompress : S.CG → Option S.G
  asNat : S.AT → Nat
  oracle : Tr (ZMod Q.r) S.G F → ZMod Q.r
  plonk : Par → String → List F → Pf → Bool
  sigVerify : S.PK → Bytes → S.Sg → Bool

/-- models `ArToAbarBody`, ar_to_abar.rs:36-46; the memo is given by the bytes of its point and its ciphertext -/
structure ArToAbarBody (S : Xfr.Types) (F Pf : Type) where
  input : BlindAssetRecord S
  output : F
  proof : Pf
  memo : Bytes × Bytes

/-- models `ArToAbarNote`, ar_to_abar.rs:27-33 -/
structure ArToAbarNote (S : Xfr.Types) (F Pf : Type) where
  body : ArToAbarBody S F Pf
  signature : S.Sg

/-- models `AbarToArNote` and `AbarToArBody`, abar_to_ar.rs:41-79, without the root version and the memo, which the verifier does
not read -/
structure AbarToArNote (S : Xfr.Types) (P : SimFr.Params) (F Pf G Mp : Type) where
  input : F
  output : BlindAssetRecord S
  root : F
  proof : Pf
  folding : FoldInst P F G Mp

/-- models `BarToAbarBody`, bar_to_abar.rs:47-61; the memo as in `ArToAbarBody` -/
structure BarToAbarBody (S : Xfr.Types) (Q : SimFr.Params) (F Pf : Type) where
  input : BlindAssetRecord S
  output : F
  schnorr : DelegatedSchnorr.Proof (ZMod Q.r) S.G F
  proof : Pf
  memo : Bytes × Bytes

/-- models `BarToAbarNote`, bar_to_abar.rs:38-44 -/
structure BarToAbarNote (S : Xfr.Types) (Q : SimFr.Params) (F Pf : Type) where
  body : BarToAbarBody S Q F Pf
  signature : S.Sg

/-- models `AbarToBarNote` and `AbarToBarBody`, abar_to_bar.rs:49-93, without the root version and the memo, which the verifier
does not read -/
structure AbarToBarNote (S : Xfr.Types) (P Q : SimFr.Params) (F Pf G Mp : Type) where
  input : F
  output : BlindAssetRecord S
  schnorr : DelegatedSchnorr.Proof (ZMod Q.r) S.G F
  root : F
  proof : Pf
  folding : FoldInst P F G Mp

/-- transcript labels, ar_to_abar.rs:24, abar_to_ar.rs:33-35, bar_to_abar.rs:36, abar_to_bar.rs:45-47 -/
def arToAbarLabel : String := "AR to ABAR Plonk Proof"
def abarToArLabel : String := "ABAR to AR Plonk Proof"
def abarToArFoldLabel : String := "ABAR to AR Folding Proof"
def barToAbarLabel : String := "BAR to ABAR Plonk Proof"
def abarToBarLabel : String := "ABAR to BAR Plonk Proof"
def abarToBarFoldLabel : String := "ABAR to BAR Folding Proof"

/-- `get_record_type() == NonConfidentialAmount_NonConfidentialAssetType`, api/src/xfr/structs.rs:107-112 -/
def bothPlain {S : Xfr.Types} (r : BlindAssetRecord S) : Bool := !r.amount.isConfidential && !r.assetType.isConfidential

section
variable {S : Xfr.Types} {P Q : SimFr.Params} {F Par Pf G Hs Mp : Type} [Field F]

/-- models `verify_ar_to_abar_body`, ar_to_abar.rs:157-180 -/
def ConvExt.verifyArToAbarBody (E : ConvExt S Q F Par Pf) (par : Par) (body : ArToAbarBody S F Pf) : Res Unit :=
  match body.input.amount, body.input.assetType with
  | .plain a, .plain t =>
    if E.plonk par arToAbarLabel [(a.toNat : F), (E.asNat t : F), body.output] body.proof then .ok () else .err
  | _, _ => .err

/-- models `verify_ar_to_abar_note`, ar_to_abar.rs:68-77; `ser` is `bincode::serialize` -/
def ConvExt.verifyArToAbar (E : ConvExt S Q F Par Pf) (ser : ArToAbarBody S F Pf → Option Bytes) (par : Par)
    (note : ArToAbarNote S F Pf) : Res Unit := do
  let msg ← Res.ofOption (ser note.body)
  if E.sigVerify note.body.input.publicKey msg note.signature then E.verifyArToAbarBody par note.body else .err

/-- models `batch_verify_ar_to_abar_note`, ar_to_abar.rs:81-104: whether it returns `Ok`.  A panic in a worker thread is
propagated by rayon, unless another note has failed before; either way the batch is not accepted. -/
def ConvExt.batchArToAbar (E : ConvExt S Q F Par Pf) (ser : ArToAbarBody S F Pf → Option Bytes) (par : Par)
    (notes : List (ArToAbarNote S F Pf)) : Bool :=
  notes.all (fun note => decide (E.verifyArToAbar ser par note = .ok ()))

section
variable [Fact P.r.Prime] [AddCommGroup G] [DecidableEq G] [Module (ZMod P.r) G]

/-- the body of the closure, abar_to_ar.rs:242-273, which repeats abar_to_ar.rs:174-212 without the root check; the `unwrap`s
on amount and type panic for confidential ones -/
def ConvExt.checkAbarToAr (E : ConvExt S Q F Par Pf) (X : FoldExt P F G Hs Mp) (par : Par) (note : AbarToArNote S P F Pf G Mp)
    (root : F) (h : Hs) : Res Unit := do
  let c ← X.verify abarToArFoldLabel h note.folding
  let fold ← note.folding.input c
  match note.output.amount, note.output.assetType with
  | .plain a, .plain t =>
    if E.plonk par abarToArLabel ([note.input, root, (a.toNat : F), (E.asNat t : F)] ++ fold) note.proof then .ok () else .err
  | _, _ => .panic

/-- models `verify_abar_to_ar_note`, abar_to_ar.rs:163-213.  The code compares the roots after the folding proof. -/
def ConvExt.verifyAbarToAr [DecidableEq F] (E : ConvExt S Q F Par Pf) (X : FoldExt P F G Hs Mp) (par : Par)
    (note : AbarToArNote S P F Pf G Mp) (root : F) (h : Hs) : Res Unit :=
  match note.output.amount, note.output.assetType with
  | .plain a, .plain t => do
    let c ← X.verify abarToArFoldLabel h note.folding
    let fold ← note.folding.input c
    if root ≠ note.root then .err
    else if E.plonk par abarToArLabel ([note.input, root, (a.toNat : F), (E.asNat t : F)] ++ fold) note.proof then .ok ()
    else .err
  | _, _ => .err

/-- models `batch_verify_abar_to_ar_note`, abar_to_ar.rs:218-281: whether it returns `Ok` -/
def ConvExt.batchAbarToAr [DecidableEq F] (E : ConvExt S Q F Par Pf) (X : FoldExt P F G Hs Mp) (par : Par)
    (notes : List (AbarToArNote S P F Pf G Mp)) (roots : List F) (hs : List Hs) : Bool :=
  if notes.any (fun n => n.output.amount.isConfidential || n.output.assetType.isConfidential) then false
  else if (roots.zip notes).any (fun (x, y) => x ≠ y.root) then false
  else ((notes.zip roots).zip hs).all (fun ((note, root), h) => decide (E.checkAbarToAr X par note root h = .ok ()))

end

section
variable [Fact Q.r.Prime] [AddCommGroup S.G] [DecidableEq S.G] [Module (ZMod Q.r) S.G]

/-- the commitments to the two halves of the amount, bar_to_abar.rs:226-243 and abar_to_bar.rs:258-275 -/
def ConvExt.amountComs (E : ConvExt S Q F Par Pf) (r : BlindAssetRecord S) : Res (S.G × S.G) :=
  match r.amount with
  | .conf lo hi => do
    let lo ← Res.ofOption (E.decompress lo)
    let hi ← Res.ofOption (E.decompress hi)
    pure (lo, hi)
  | .plain a => .ok (DelegatedSchnorr.commit E.gens (((splitU64 a).1.toNat : Nat) : ZMod Q.r) 0,
      DelegatedSchnorr.commit E.gens (((splitU64 a).2.toNat : Nat) : ZMod Q.r) 0)

/-- the commitment to the asset type, bar_to_abar.rs:247-256 and abar_to_bar.rs:279-288 -/
def ConvExt.typeCom (E : ConvExt S Q F Par Pf) (r : BlindAssetRecord S) : Res S.G :=
  match r.assetType with
  | .conf c => Res.ofOption (E.decompress c)
  | .plain t => .ok (DelegatedSchnorr.commit E.gens ((E.asNat t : Nat) : ZMod Q.r) 0)

/-- the two commitments of the delegated Schnorr proof, bar_to_abar.rs:226-256 and abar_to_bar.rs:258-288 -/
def ConvExt.recordComs (E : ConvExt S Q F Par Pf) (r : BlindAssetRecord S) : Res (S.G × S.G) := do
  let c ← E.amountComs r
  let t ← E.typeCom r
  pure (c.1 + ((2 ^ 32 : Nat) : ZMod Q.r) • c.2, t)

/-- models `verify_bar_to_abar`, bar_to_abar.rs:208-274, with `verify_inspection`, bar_to_abar.rs:327-367 -/
def ConvExt.verifyBarToAbarBody (E : ConvExt S Q F Par Pf) (par : Par) (bar : BlindAssetRecord S) (com : F)
    (schnorr : DelegatedSchnorr.Proof (ZMod Q.r) S.G F) (proof : Pf) : Res Unit :=
  if bothPlain bar then .err
  else do
    let c ← E.recordComs bar
    let out ← DelegatedSchnorr.verify E.gens E.oracle [.label barToAbarLabel, .bound com] [c.1, c.2] schnorr
    let input ← Res.unwrap (inspectInput Q schnorr.comm out.1 out.2.1 (schnorr.responses.map (·.1)))
    if E.plonk par barToAbarLabel (com :: input) proof then .ok () else .err

/-- models `verify_bar_to_abar_note`, bar_to_abar.rs:85-101 -/
def ConvExt.verifyBarToAbar (E : ConvExt S Q F Par Pf) (ser : BarToAbarBody S Q F Pf → Option Bytes) (par : Par)
    (note : BarToAbarNote S Q F Pf) (key : S.PK) : Res Unit := do
  E.verifyBarToAbarBody par note.body.input note.body.output note.body.schnorr note.body.proof
  let msg ← Res.ofOption (ser note.body)
  if E.sigVerify key msg note.signature then .ok () else .err

/-- models `batch_verify_bar_to_abar_note`, bar_to_abar.rs:105-135: whether it returns `Ok` -/
def ConvExt.batchBarToAbar (E : ConvExt S Q F Par Pf) (ser : BarToAbarBody S Q F Pf → Option Bytes) (par : Par)
    (notes : List (BarToAbarNote S Q F Pf)) (keys : List S.PK) : Bool :=
  (notes.zip keys).all (fun (note, key) => decide (E.verifyBarToAbar ser par note key = .ok ()))

variable [Fact P.r.Prime] [AddCommGroup G] [DecidableEq G] [Module (ZMod P.r) G]

/-- the body of the closure, abar_to_bar.rs:381-480, which repeats abar_to_bar.rs:255-344 -/
def ConvExt.checkAbarToBar (E : ConvExt S Q F Par Pf) (X : FoldExt P F G Hs Mp) (par : Par)
    (note : AbarToBarNote S P Q F Pf G Mp) (root : F) (h : Hs) : Res Unit := do
  let c ← E.recordComs note.output
  let out ← DelegatedSchnorr.verify E.gens E.oracle [.label abarToBarLabel, .bound note.input] [c.1, c.2] note.schnorr
  let ch ← X.verify abarToBarFoldLabel h note.folding
  let fold ← note.folding.input ch
  let input ← Res.unwrap (inspectInput Q note.schnorr.comm out.1 out.2.1 (note.schnorr.responses.map (·.1)))
  if E.plonk par abarToBarLabel ([note.input, root] ++ (input ++ fold)) note.proof then .ok () else .err

/-- models `verify_abar_to_bar_note`, abar_to_bar.rs:235-345 -/
def ConvExt.verifyAbarToBar [DecidableEq F] (E : ConvExt S Q F Par Pf) (X : FoldExt P F G Hs Mp) (par : Par)
    (note : AbarToBarNote S P Q F Pf G Mp) (root : F) (h : Hs) : Res Unit :=
  if root ≠ note.root then .err
  else if bothPlain note.output then .err
  else E.checkAbarToBar X par note root h

/-- models `batch_verify_abar_to_bar_note`, abar_to_bar.rs:350-487: whether it returns `Ok` -/
def ConvExt.batchAbarToBar [DecidableEq F] (E : ConvExt S Q F Par Pf) (X : FoldExt P F G Hs Mp) (par : Par)
    (notes : List (AbarToBarNote S P Q F Pf G Mp)) (roots : List F) (hs : List Hs) : Bool :=
  if (roots.zip notes).any (fun (x, y) => x ≠ y.root) then false
  else if notes.any (fun n => bothPlain n.output) then false
  else ((notes.zip roots).zip hs).all (fun ((note, root), h) => decide (E.checkAbarToBar X par note root h = .ok ()))

end

end

end Verif.Anon
