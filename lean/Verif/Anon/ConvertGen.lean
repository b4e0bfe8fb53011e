import Verif.Anon.ConvertEnd
import Verif.Anon.ConvertExamples

/-!
C80: notes made by the functions that generate conversions are accepted by the verifiers.

The generators are modelled with their random samples as arguments.  The PLONK prover, the Bulletproofs prover for the
key pair and the signature are parameters; what is assumed of them is stated by `Completes`, `FoldProver.Complete` and the
hypotheses on signatures.
-/

namespace Verif.Anon

open Verif.Plonk Verif.Plonk.Spec Verif.SimFr Verif.SimFr.Spec Verif.StateComm Verif.Anon.Spec
open Verif.DelegatedSchnorr (Tr Msg)
open Verif.Xfr (BlindAssetRecord splitU64)

/-! ### Model -/

/-- models `OpenAssetRecord`, api/src/xfr/structs.rs:296-310, with the scalars of Ristretto as `ZMod Q.r` -/
structure OpenRec (S : Xfr.Types) (Q : SimFr.Params) where
  bar : BlindAssetRecord S
  amount : UInt64
  blinds : ZMod Q.r × ZMod Q.r
  ty : S.AT
  tyBlind : ZMod Q.r

/-- what the generators call: `prover_with_lagrange` for given parameters, transcript label and witness, and `XfrKeyPair::sign` -/
structure ConvProver (S : Xfr.Types) (F Par Pf SigKey : Type) where
  prove : Par → String → List F → Res Pf
  sign : SigKey → Bytes → Res S.Sg

/-- an anonymous key pair, by the coordinates of the public key and the secret key as numbers -/
structure FoldKey where
  x : Nat
  y : Nat
  s : Nat

/-- `ScalarMulProof::prove` (crypto/src/bulletproofs/scalar_mul.rs:251-320) on a transcript that was created with a label and
holds the hash: the proof, the commitments, the blinding factors, and the transcript it leaves -/
structure FoldProver (P : SimFr.Params) (F G Hs Mp : Type) where
  mul : String → Hs → FoldKey → Res (Mp × List G × List (ZMod P.r) × Tr (ZMod P.r) G F)

section
variable {F : Type} [Field F] [ScalarRepr F] (p : Rescue.Params F)

/-- `prove_delegated_schnorr` (crypto/src/delegated_schnorr.rs:86-246) with the commitment to the state of lines 112-174 -/
def proveSchnorr {G : Type} [AddCommGroup G] (P : SimFr.Params) [Fact P.r.Prime] [Module (ZMod P.r) G] (g : ChaumPedersen.Gens G)
    (H : Tr (ZMod P.r) G F → ZMod P.r) (tr : Tr (ZMod P.r) G F) (rand : List (ZMod P.r × ZMod P.r)) (r : F)
    (data : List (ZMod P.r × ZMod P.r)) (coms : List G) :
    Res (DelegatedSchnorr.Proof (ZMod P.r) G F × DelegatedSchnorr.Inspection (ZMod P.r) F × ZMod P.r × ZMod P.r × Tr (ZMod P.r) G F) :=
  match stateComm p P (data.map (·.1.val)) (rand.map (·.1.val)) r with
  | none => .panic
  | some k => DelegatedSchnorr.prove (fun _ _ _ => k) g H tr rand r data coms

/-- models `create_address_folding`, address_folding.rs:97-147 -/
def FoldProver.create {P : SimFr.Params} {G Hs Mp : Type} [AddCommGroup G] [Fact P.r.Prime] [Module (ZMod P.r) G]
    (M : FoldProver P F G Hs Mp) (X : FoldExt P F G Hs Mp) (label : String) (h : Hs) (key : FoldKey)
    (rand : List (ZMod P.r × ZMod P.r)) (r : F) : Res (FoldInst P F G Mp × FoldWitness P F) := do
  let (mul, coms, blinds, tr) ← M.mul label h key
  let b0 ← Res.unwrap blinds[0]?
  let b1 ← Res.unwrap blinds[1]?
  let b2 ← Res.unwrap blinds[2]?
  let (pf, insp, beta, lambda, _) ← proveSchnorr p P X.gens X.oracle tr rand r
    [((key.x : ZMod P.r), b0), ((key.y : ZMod P.r), b1), ((key.s : ZMod P.r), b2)] coms
  pure (⟨pf, coms, mul⟩, ⟨key.x, key.y, key.s, beta, lambda, insp.data.map (·.2), pf.responses.map (·.1), insp.r, pf.comm⟩)

/-- the witness of the circuit, bar_to_abar.rs:370-380 and abar_to_bar.rs:533-541 -/
def inspWitness {P : SimFr.Params} {G : Type} (pf : DelegatedSchnorr.Proof (ZMod P.r) G F)
    (insp : DelegatedSchnorr.Inspection (ZMod P.r) F) (beta lambda : ZMod P.r) : InspWitness P F :=
  ⟨insp.data, pf.responses.map (·.1), beta, lambda, insp.r, pf.comm⟩

variable {S : Xfr.Types} {P Q : SimFr.Params} {Par Pf G Hs Mp SigKey : Type} [DecidableEq F]

omit [ScalarRepr F] in
/-- models `gen_ar_to_abar_body`, ar_to_abar.rs:109-154; the blinding factor and the memo come from the generator -/
def ConvProver.genArToAbarBody (V : ConvProver S F Par Pf SigKey) (E : ConvExt S Q F Par Pf) (par : Par) (o : OpenRec S Q) (pk : PK F)
    (blind : F) (memo : Bytes × Bytes) : Res (ArToAbarBody S F Pf) := do
  let (_, cs) ← Res.unwrap (buildArToAbar p ⟨(o.amount.toNat : F), blind, (E.asNat o.ty : F), pk⟩ CS.new)
  let pf ← V.prove par arToAbarLabel cs.witness
  pure ⟨o.bar, commit p pk blind (o.amount.toNat : F) (E.asNat o.ty : F), pf, memo⟩

omit [ScalarRepr F] in
/-- models `gen_ar_to_abar_note`, ar_to_abar.rs:48-66 -/
def ConvProver.genArToAbar (V : ConvProver S F Par Pf SigKey) (E : ConvExt S Q F Par Pf) (ser : ArToAbarBody S F Pf → Option Bytes)
    (par : Par) (o : OpenRec S Q) (sk : SigKey) (pk : PK F) (blind : F) (memo : Bytes × Bytes) : Res (ArToAbarNote S F Pf) := do
  let body ← V.genArToAbarBody p E par o pk blind memo
  let msg ← Res.ofOption (ser body)
  let sig ← V.sign sk msg
  pure ⟨body, sig⟩

/-- the amount and asset type of an opened record with their blinding factors, bar_to_abar.rs:163-172 and abar_to_bar.rs:143-152 -/
def OpenRec.data (E : ConvExt S Q F Par Pf) (o : OpenRec S Q) : List (ZMod Q.r × ZMod Q.r) :=
  [((o.amount.toNat : ZMod Q.r), o.blinds.1 + o.blinds.2 * ((2 ^ 32 : Nat) : ZMod Q.r)), ((E.asNat o.ty : ZMod Q.r), o.tyBlind)]

section
variable [Fact Q.r.Prime] [AddCommGroup S.G] [Module (ZMod Q.r) S.G]

/-- models `gen_bar_to_abar_note`, bar_to_abar.rs:64-94, with `prove_bar_to_abar` (l.137-206) and `prove_inspection` (l.277-324) -/
def ConvProver.genBarToAbar (V : ConvProver S F Par Pf SigKey) (E : ConvExt S Q F Par Pf) (dbg : Bool)
    (ser : BarToAbarBody S Q F Pf → Option Bytes) (par : Par) (o : OpenRec S Q) (sk : SigKey) (pk : PK F) (blind : F) (memo : Bytes × Bytes)
    (rand : List (ZMod Q.r × ZMod Q.r)) (r : F) : Res (BarToAbarNote S Q F Pf) :=
  if bothPlain o.bar then .err
  else do
    let com := commit p pk blind (o.amount.toNat : F) (E.asNat o.ty : F)
    let (pf, insp, beta, lambda, _) ← proveSchnorr p Q E.gens E.oracle [.label barToAbarLabel, .bound com] rand r (o.data E)
      ((o.data E).map (fun d => DelegatedSchnorr.commit E.gens d.1 d.2))
    let (_, cs) ← Res.unwrap (buildBarToAbar p dbg Q ⟨(o.amount.toNat : F), blind, (E.asNat o.ty : F), pk⟩
      (inspWitness pf insp beta lambda) CS.new)
    let proof ← V.prove par barToAbarLabel cs.witness
    let body : BarToAbarBody S Q F Pf := ⟨o.bar, com, pf, proof, memo⟩
    let msg ← Res.ofOption (ser body)
    let sig ← V.sign sk msg
    pure ⟨body, sig⟩

end

section
variable [Fact P.r.Prime] [AddCommGroup G] [Module (ZMod P.r) G]

/-- models `init_abar_to_ar_note` and `finish_abar_to_ar_note`, abar_to_ar.rs:78-160, with `prove_abar_to_ar` (l.282-303), for a
record with a Merkle path and the key pair of its public key; `s` holds the scalars of the witness, `amount` and `ty` are
those of the record, `key` is the receiver's -/
def ConvProver.genAbarToAr (V : ConvProver S F Par Pf SigKey) (E : ConvExt S Q F Par Pf) (X : FoldExt P F G Hs Mp)
    (M : FoldProver P F G Hs Mp) (dbg : Bool) (modulus : Bytes) (par : Par) (uid blind : F) (path : List (MTNode F)) (root : F)
    (amount : UInt64) (ty : S.AT) (key : S.PK) (keypair : FoldKey) (h : Hs) (rand : List (ZMod P.r × ZMod P.r)) (r : F) :
    Res (AbarToArNote S P F Pf G Mp) := do
  let s : Payer F := ⟨uid, (amount.toNat : F), (E.asNat ty : F), blind, path⟩
  let pk : PK F := pkWords keypair.x keypair.y
  let sk : SK F := skWords keypair.s
  let (inst, wit) ← M.create p X abarToArFoldLabel h keypair rand r
  let (_, cs) ← Res.unwrap (buildAbarToAr p (foldingCircuit p dbg P modulus wit) s pk sk CS.new)
  let proof ← V.prove par abarToArLabel cs.witness
  pure ⟨nullify p pk sk uid (amount.toNat : F) (E.asNat ty : F), ⟨.plain amount, .plain ty, key⟩, root, proof, inst⟩

variable [Fact Q.r.Prime] [AddCommGroup S.G] [Module (ZMod Q.r) S.G]

/-- models `init_abar_to_bar_note` and `finish_abar_to_bar_note`, abar_to_bar.rs:96-232, with `prove_abar_to_bar` (l.498-530), for
a record with a Merkle path and the key pair of its public key; `o` is the result of `build_open_asset_record` for the
amount and asset type of the record and the kind asked for -/
def ConvProver.genAbarToBar (V : ConvProver S F Par Pf SigKey) (E : ConvExt S Q F Par Pf) (X : FoldExt P F G Hs Mp)
    (M : FoldProver P F G Hs Mp) (dbg : Bool) (modulus : Bytes) (par : Par) (uid blind : F) (path : List (MTNode F)) (root : F)
    (o : OpenRec S Q) (keypair : FoldKey) (h : Hs) (rand : List (ZMod P.r × ZMod P.r)) (r : F)
    (irand : List (ZMod Q.r × ZMod Q.r)) (ir : F) : Res (AbarToBarNote S P Q F Pf G Mp) :=
  if bothPlain o.bar then .err
  else do
    let s : Payer F := ⟨uid, (o.amount.toNat : F), (E.asNat o.ty : F), blind, path⟩
    let pk : PK F := pkWords keypair.x keypair.y
    let sk : SK F := skWords keypair.s
    let nul := nullify p pk sk uid (o.amount.toNat : F) (E.asNat o.ty : F)
    let (pf, insp, beta, lambda, _) ← proveSchnorr p Q E.gens E.oracle [.label abarToBarLabel, .bound nul] irand ir (o.data E)
      ((o.data E).map (fun d => DelegatedSchnorr.commit E.gens d.1 d.2))
    let (inst, wit) ← M.create p X abarToBarFoldLabel h keypair rand r
    let (_, cs) ← Res.unwrap (buildAbarToBar p (foldingCircuit p dbg P modulus wit) dbg Q s pk sk (inspWitness pf insp beta lambda) CS.new)
    let proof ← V.prove par abarToBarLabel cs.witness
    pure ⟨nul, o.bar, pf, root, proof, inst⟩

end

end

/-! ### Assumptions -/

/-- the PLONK prover is complete for the circuit `cs0` from which the keys were made: for the witness of every system with the
same gates that satisfies it, it returns a proof that is accepted for the public values of this witness -/
def Completes {S : Xfr.Types} {Q : SimFr.Params} {F Par Pf SigKey : Type} [Field F] (V : ConvProver S F Par Pf SigKey)
    (E : ConvExt S Q F Par Pf) (par : Par) (label : String) (cs0 : CS F) : Prop :=
  ∀ cs : CS F, cs.shape = cs0.shape → Sat cs cs.value cs.online →
    ∃ pf, V.prove par label cs.witness = .ok pf ∧ E.plonk par label cs.online pf = true

/-- the Bulletproofs prover is complete for the key pair: it commits to the coordinates and the secret key, and the proof is
accepted with the same transcript -/
def FoldProver.Complete {P : SimFr.Params} {F G Hs Mp : Type} [AddCommGroup G] [Fact P.r.Prime] [Module (ZMod P.r) G]
    (M : FoldProver P F G Hs Mp) (X : FoldExt P F G Hs Mp) (label : String) (h : Hs) (key : FoldKey) : Prop :=
  ∃ mul b0 b1 b2 tr,
    let coms := [(key.x : ZMod P.r) • X.gens.B + b0 • X.gens.Bb, (key.y : ZMod P.r) • X.gens.B + b1 • X.gens.Bb,
      (key.s : ZMod P.r) • X.gens.B + b2 • X.gens.Bb]
    M.mul label h key = .ok (mul, coms, [b0, b1, b2], tr) ∧ X.scalarMul label h coms mul = some tr

/-- the opening that an opened record holds -/
def Spec.RecOpening.ofRec {S : Xfr.Types} {Q : SimFr.Params} {F Par Pf : Type} (E : ConvExt S Q F Par Pf) (o : OpenRec S Q) : RecOpening Q :=
  ⟨(splitU64 o.amount).1.toNat, (splitU64 o.amount).2.toNat, o.blinds, E.asNat o.ty, o.tyBlind⟩

/-! ### Lemmas -/

theorem _root_.Verif.Plonk.Uniform.shape {F α : Type} [Field F] {ρ : α → α → Prop} {m n : Build F α} (h : Uniform ρ m n) {a b : α}
    {cs cs' : CS F} (ha : m CS.new = some (a, cs)) (hb : n CS.new = some (b, cs')) : cs.shape = cs'.shape := by
  have := h CS.new CS.new rfl
  rw [ha, hb] at this
  cases this with
  | some h => exact h.2

section
variable {F : Type} [Field F] [ScalarRepr F] (p : Rescue.Params F)

theorem proveSchnorr_ok {G : Type} [AddCommGroup G] [DecidableEq G] (P : SimFr.Params) [Fact P.r.Prime] [Module (ZMod P.r) G]
    (hb : P.bits ≠ 0 ∧ P.bits ≤ 254) (hl : P.limbs ≠ 0) (g : ChaumPedersen.Gens G) (H : Tr (ZMod P.r) G F → ZMod P.r)
    (tr : Tr (ZMod P.r) G F) (rand : List (ZMod P.r × ZMod P.r)) (r : F) (data : List (ZMod P.r × ZMod P.r)) (hd : data ≠ [])
    (hr : rand.length = data.length) :
    ∃ pf insp beta lambda tr', proveSchnorr p P g H tr rand r data (data.map (fun d => DelegatedSchnorr.commit g d.1 d.2)) =
        .ok (pf, insp, beta, lambda, tr') ∧
      DelegatedSchnorr.verify g H tr (data.map (fun d => DelegatedSchnorr.commit g d.1 d.2)) pf = .ok (beta, lambda, tr') ∧
      insp.data = List.zipWith (fun d q => (d.1, q.1)) data rand ∧ insp.r = r ∧
      pf.responses.map (·.1) = insp.data.map (fun d => beta * d.1 + d.2) ∧
      stateComm p P (data.map (·.1.val)) (rand.map (·.1.val)) r = some pf.comm := by
  obtain ⟨k, hk⟩ := (C65_state_commitment_total p P hb hl (data.map (·.1.val)) (rand.map (·.1.val)) r).mpr (by simp [hd])
  have hf : List.Forall₂ (fun c (d : ZMod P.r × ZMod P.r) => ChaumPedersen.Opens g c d.1 d.2)
      (data.map (fun d => DelegatedSchnorr.commit g d.1 d.2)) data := by
    rw [List.forall₂_map_left_iff]
    exact List.forall₂_same.mpr (fun d _ => rfl)
  obtain ⟨pf, i, beta, lambda, tr', h1, h2, h3, h4⟩ := DelegatedSchnorr.C65_complete (fun _ _ _ => k) g H tr rand r data _ hr hf
  have h5 : i.data = List.zipWith (fun d q => (d.1, q.1)) data rand ∧ i.r = r := by
    unfold DelegatedSchnorr.prove at h1
    rw [if_pos (by simp)] at h1
    obtain ⟨-, e, -⟩ := Prod.mk.inj (Res.ok.inj h1) |>.imp id Prod.mk.inj
    rw [← e]
    exact ⟨rfl, rfl⟩
  refine ⟨pf, i, beta, lambda, tr', ?_, h2, h5.1, h5.2, h4, ?_⟩
  · unfold proveSchnorr
    rw [hk]
    exact h1
  · rw [hk, h3]

theorem FoldOk.bits_ne {P : SimFr.Params} (h : FoldOk P F) : P.bits ≠ 0 := by
  have := h.ok.top
  omega

theorem InspOk.bits_ok {P : SimFr.Params} (h : InspOk P F) : P.bits ≠ 0 ∧ P.bits ≤ 254 := by
  have := h.words
  unfold perWord at this
  constructor
  · rintro e
    simp [e] at this
  · by_contra hc
    rw [Nat.div_eq_of_lt (by omega)] at this
    omega

omit [Field F] [ScalarRepr F] p in
theorem val_lt_cast {r n : Nat} (h : n < r) : ((n : ZMod r)).val = n := ZMod.val_cast_of_lt h

/-- an honest inspection of an opened record -/
theorem inspection_honest {G : Type} [AddCommGroup G] [DecidableEq G] (Q : SimFr.Params) [Fact Q.r.Prime] [Module (ZMod Q.r) G]
    (hq : InspOk Q F) (g : ChaumPedersen.Gens G) (H : Tr (ZMod Q.r) G F → ZMod Q.r) (tr : Tr (ZMod Q.r) G F)
    (rand : List (ZMod Q.r × ZMod Q.r)) (hr : rand.length = 2) (r : F) (x y : Nat) (hx : x < 2 ^ 64 ∧ x < Q.r)
    (hy : y < 2 ^ 240 ∧ y < Q.r) (g0 g1 : ZMod Q.r) :
    ∃ pf insp beta lambda tr', proveSchnorr p Q g H tr rand r [((x : ZMod Q.r), g0), ((y : ZMod Q.r), g1)]
        ([((x : ZMod Q.r), g0), ((y : ZMod Q.r), g1)].map (fun d => DelegatedSchnorr.commit g d.1 d.2)) =
        .ok (pf, insp, beta, lambda, tr') ∧
      DelegatedSchnorr.verify g H tr
        ([((x : ZMod Q.r), g0), ((y : ZMod Q.r), g1)].map (fun d => DelegatedSchnorr.commit g d.1 d.2)) pf = .ok (beta, lambda, tr') ∧
      (inspWitness pf insp beta lambda).Honest p x y := by
  obtain ⟨pf, insp, beta, lambda, tr', h1, h2, h3, h4, h5, h6⟩ := proveSchnorr_ok p Q hq.bits_ok (by rw [hq.six]; decide) g H tr rand r
    [((x : ZMod Q.r), g0), ((y : ZMod Q.r), g1)] (by simp) hr
  obtain ⟨a, b, rfl⟩ := List.length_eq_two.mp hr
  refine ⟨pf, insp, beta, lambda, tr', h1, h2, hx, hy, a.1, b.1, h3, ?_, ?_⟩
  · show pf.responses.map (·.1) = _
    rw [h5, h3]
    rfl
  · show stateComm p Q _ _ insp.r = some pf.comm
    rw [h4, ← h6]
    simp only [List.map_cons, List.map_nil, val_lt_cast hx.2, val_lt_cast hy.2]

/-- an honest folding of a key pair -/
theorem folding_honest {G Hs Mp : Type} [AddCommGroup G] [DecidableEq G] (P : SimFr.Params) [Fact P.r.Prime] [Module (ZMod P.r) G]
    (hP : FoldOk P F) (hb : P.bits ≤ 254) (X : FoldExt P F G Hs Mp) (M : FoldProver P F G Hs Mp) (label : String) (h : Hs) (key : FoldKey)
    (hM : M.Complete X label h key) (order : Nat) (hk : key.x < P.r ∧ key.y < P.r ∧ key.s < P.r ∧ key.s < order)
    (rand : List (ZMod P.r × ZMod P.r)) (hr : rand.length = 3) (r : F) :
    ∃ inst wit, M.create p X label h key rand r = .ok (inst, wit) ∧ wit.Honest p order ∧ wit.x = key.x ∧ wit.y = key.y ∧ wit.s = key.s ∧
      X.verify label h inst = .ok (wit.beta, wit.lambda) ∧ inst.schnorr.comm = wit.comm ∧
      inst.schnorr.responses.map (·.1) = wit.resps := by
  obtain ⟨mul, b0, b1, b2, tr, h1, h2⟩ := hM
  obtain ⟨pf, insp, beta, lambda, tr', e1, e2, e3, e4, e5, e6⟩ := proveSchnorr_ok p P ⟨hP.bits_ne, hb⟩ (by have := hP.ok.pos; omega)
    X.gens X.oracle tr rand r [((key.x : ZMod P.r), b0), ((key.y : ZMod P.r), b1), ((key.s : ZMod P.r), b2)] (by simp) hr
  obtain ⟨a, b, c, rfl⟩ := List.length_eq_three.mp hr
  refine ⟨⟨pf, [(key.x : ZMod P.r) • X.gens.B + b0 • X.gens.Bb, (key.y : ZMod P.r) • X.gens.B + b1 • X.gens.Bb,
    (key.s : ZMod P.r) • X.gens.B + b2 • X.gens.Bb], mul⟩, ⟨key.x, key.y, key.s, beta, lambda, insp.data.map (·.2), pf.responses.map (·.1), insp.r, pf.comm⟩, ?_,
    ⟨hk.1, hk.2.1, hk.2.2, ⟨a.1, b.1, c.1, ?_, ?_⟩, ?_⟩, rfl, rfl, rfl, ?_, rfl, rfl⟩
  · unfold FoldProver.create
    rw [h1]
    simp only [Res.bind_ok, List.getElem?_cons_zero, List.getElem?_cons_succ, Res.unwrap_some]
    erw [e1]
    rfl
  · simp only [e3]
    rfl
  · simp only [e5, e3]
    rfl
  · simp only
    rw [e4, ← e6, e3]
    simp only [List.map_cons, List.map_nil, val_lt_cast hk.1, val_lt_cast hk.2.1, val_lt_cast hk.2.2.1, List.zipWith_cons_cons,
      List.zipWith_nil_left]
  · unfold FoldExt.verify
    simp only [List.length_cons, List.length_nil]
    rw [if_neg (by omega), h2, Res.ofOption_some, Res.bind_ok]
    erw [e2]
    rfl

end

/-! ### C80 -/

section
variable {S : Xfr.Types} {P Q : SimFr.Params} {F Par Pf G Hs Mp SigKey : Type} [Field F] [DecidableEq F] [ScalarRepr F]
variable (p : Rescue.Params F)

/-- the note that is made is the one for the proof of a satisfied system with the gates of the keys -/
theorem arToAbar_reduces (hp : GoodParams p) (V : ConvProver S F Par Pf SigKey) (E : ConvExt S Q F Par Pf)
    (ser : ArToAbarBody S F Pf → Option Bytes) (hser : ∀ b, ∃ m, ser b = some m) (par : Par)
    (t : Payee F) (vars : PayeeVars) (cs : CS F) (hb : buildArToAbar p t CS.new = some (vars, cs))
    (o : OpenRec S Q)
    (ho : o.bar.amount = .plain o.amount ∧ o.bar.assetType = .plain o.ty) (sk : SigKey)
    (hsig : ∀ m, ∃ sig, V.sign sk m = .ok sig ∧ E.sigVerify o.bar.publicKey m sig = true) (pk : PK F) (blind : F) (memo : Bytes × Bytes) :
    ∃ cs' : CS F, cs'.shape = cs.shape ∧ (∃ t vars, buildArToAbar p t CS.new = some (vars, cs')) ∧ Sat cs' cs'.value cs'.online ∧
      ∀ (prove : Par → String → List F → Res Pf) (plonk : Par → String → List F → Pf → Bool),
      (prove par arToAbarLabel cs'.witness = .panic →
        { V with prove := prove }.genArToAbar p { E with plonk := plonk } ser par o sk pk blind memo = .panic) ∧
      ∀ pf, prove par arToAbarLabel cs'.witness = .ok pf → plonk par arToAbarLabel cs'.online pf = true →
    ∃ note, { V with prove := prove }.genArToAbar p { E with plonk := plonk } ser par o sk pk blind memo = .ok note ∧
      { E with plonk := plonk }.verifyArToAbar ser par note = .ok () ∧
      note.body.input = o.bar ∧ note.body.output = commit p pk blind (o.amount.toNat : F) (E.asNat o.ty : F) ∧
      note.body.memo = memo := by
  obtain ⟨vars', cs', h1, h2, h3⟩ := C73_ar_to_abar_complete p hp ⟨(o.amount.toNat : F), blind, (E.asNat o.ty : F), pk⟩
  refine ⟨cs', (C73_ar_to_abar_uniform p _ _).shape h1 hb, ⟨_, _, h1⟩, by rw [h2]; exact h3, fun prove plonk => ⟨fun h4 => ?_, fun pf h4 h5 => ?_⟩⟩
  · unfold ConvProver.genArToAbar ConvProver.genArToAbarBody
    simp only [h1, Res.unwrap_some, Res.bind_ok, h4, Res.bind_panic]
  rw [h2] at h5
  obtain ⟨m, hm⟩ := hser ⟨o.bar, commit p pk blind (o.amount.toNat : F) (E.asNat o.ty : F), pf, memo⟩
  obtain ⟨sig, hs1, hs2⟩ := hsig m
  refine ⟨⟨⟨o.bar, commit p pk blind (o.amount.toNat : F) (E.asNat o.ty : F), pf, memo⟩, sig⟩, ?_, ?_, rfl, rfl, rfl⟩
  · unfold ConvProver.genArToAbar ConvProver.genArToAbarBody
    simp only [h1, Res.unwrap_some, Res.bind_ok, h4, Res.pure_eq, hm, Res.ofOption_some, hs1]
  · unfold ConvExt.verifyArToAbar ConvExt.verifyArToAbarBody
    simp only [hm, Res.ofOption_some, Res.bind_ok, hs2, if_true, ho.1, ho.2, h5]

/-- C80, transparent to anonymous: with keys made from the circuit of any record, a complete PLONK prover, and signatures that
verify, a note is made for every record with visible amount and type, and it is accepted. -/
theorem C80_ar_to_abar_complete (hp : GoodParams p) (V : ConvProver S F Par Pf SigKey) (E : ConvExt S Q F Par Pf)
    (ser : ArToAbarBody S F Pf → Option Bytes) (hser : ∀ b, ∃ m, ser b = some m) (par : Par)
    (t : Payee F) (vars : PayeeVars) (cs : CS F) (hb : buildArToAbar p t CS.new = some (vars, cs))
    (hV : Completes V E par arToAbarLabel cs) (o : OpenRec S Q)
    (ho : o.bar.amount = .plain o.amount ∧ o.bar.assetType = .plain o.ty) (sk : SigKey)
    (hsig : ∀ m, ∃ sig, V.sign sk m = .ok sig ∧ E.sigVerify o.bar.publicKey m sig = true) (pk : PK F) (blind : F) (memo : Bytes × Bytes) :
    ∃ note, V.genArToAbar p E ser par o sk pk blind memo = .ok note ∧ E.verifyArToAbar ser par note = .ok () ∧
      note.body.input = o.bar ∧ note.body.output = commit p pk blind (o.amount.toNat : F) (E.asNat o.ty : F) ∧
      note.body.memo = memo := by
  obtain ⟨cs', h1, -, h2, h3⟩ := arToAbar_reduces p hp V E ser hser par t vars cs hb o ho sk hsig pk blind memo
  obtain ⟨pf, h4, h5⟩ := hV cs' h1 h2
  exact (h3 V.prove E.plonk).2 pf h4 h5

section
variable [Fact Q.r.Prime] [AddCommGroup S.G] [DecidableEq S.G] [Module (ZMod Q.r) S.G]

omit [DecidableEq S.G] [DecidableEq F] [ScalarRepr F] [Field F] in
theorem ofRec_coms (E : ConvExt S Q F Par Pf) (o : OpenRec S Q) :
    (o.data E).map (fun d => DelegatedSchnorr.commit E.gens d.1 d.2) =
      [((RecOpening.ofRec E o).coms E.gens).1, ((RecOpening.ofRec E o).coms E.gens).2] := by
  simp only [OpenRec.data, List.map_cons, List.map_nil, RecOpening.coms, RecOpening.ofRec, RecOpening.amount,
    Xfr.C22_split_recombines, DelegatedSchnorr.commit]
  congr 3
  push_cast
  ring

/-- the note that is made is the one for the proof of a satisfied system with the gates of the keys -/
theorem barToAbar_reduces (hp : GoodParams p) (dbg : Bool) (hq : InspOk Q F) (hQ : 2 ^ 240 ≤ Q.r)
    (V : ConvProver S F Par Pf SigKey) (E : ConvExt S Q F Par Pf)
    (ser : BarToAbarBody S Q F Pf → Option Bytes) (hser : ∀ b, ∃ m, ser b = some m) (par : Par)
    (t : Payee F) (wit : InspWitness Q F) (hwit : wit.Consistent) (vars : BarVars F) (cs : CS F)
    (hb : buildBarToAbar p dbg Q t wit CS.new = some (vars, cs))
    (o : OpenRec S Q) (hkind : bothPlain o.bar = false) (ho : (RecOpening.ofRec E o).Opens E o.bar) (sk : SigKey) (key : S.PK)
    (hsig : ∀ m, ∃ sig, V.sign sk m = .ok sig ∧ E.sigVerify key m sig = true) (pk : PK F) (blind : F) (memo : Bytes × Bytes)
    (rand : List (ZMod Q.r × ZMod Q.r)) (hr : rand.length = 2) (r : F) :
    ∃ cs' : CS F, cs'.shape = cs.shape ∧ (∃ t wit vars, buildBarToAbar p dbg Q t wit CS.new = some (vars, cs')) ∧ Sat cs' cs'.value cs'.online ∧
      ∀ (prove : Par → String → List F → Res Pf) (plonk : Par → String → List F → Pf → Bool),
      (prove par barToAbarLabel cs'.witness = .panic →
        { V with prove := prove }.genBarToAbar p { E with plonk := plonk } dbg ser par o sk pk blind memo rand r = .panic) ∧
      ∀ proof, prove par barToAbarLabel cs'.witness = .ok proof → plonk par barToAbarLabel cs'.online proof = true →
    ∃ note, { V with prove := prove }.genBarToAbar p { E with plonk := plonk } dbg ser par o sk pk blind memo rand r = .ok note ∧
      { E with plonk := plonk }.verifyBarToAbar ser par note key = .ok () ∧
      note.body.input = o.bar ∧ note.body.output = commit p pk blind (o.amount.toNat : F) (E.asNat o.ty : F) ∧
      note.body.memo = memo := by
  have hx : o.amount.toNat < 2 ^ 64 ∧ o.amount.toNat < Q.r :=
    have h := o.amount.toNat_lt
    ⟨h, lt_of_lt_of_le h (le_trans (Nat.pow_le_pow_right (by norm_num) (by norm_num)) hQ)⟩
  have hy : E.asNat o.ty < 2 ^ 240 ∧ E.asNat o.ty < Q.r :=
    have h : E.asNat o.ty < 2 ^ 240 := ho.1.2.2
    ⟨h, lt_of_lt_of_le h hQ⟩
  set com := commit p pk blind (o.amount.toNat : F) (E.asNat o.ty : F) with hcom
  obtain ⟨pf, insp, beta, lambda, tr', e1, e2, e3⟩ := inspection_honest p Q hq E.gens E.oracle [.label barToAbarLabel, .bound com] rand hr r
    _ _ hx hy (o.blinds.1 + o.blinds.2 * ((2 ^ 32 : Nat) : ZMod Q.r)) o.tyBlind
  obtain ⟨vars', cs', input, h1, hi, h2, h3⟩ := C75_bar_to_abar_complete p hp dbg Q hq _ _ _ e3 blind pk
  refine ⟨cs', (C75_bar_to_abar_uniform p dbg Q hq _ _ _ _ e3.consistent hwit).shape h1 hb, ⟨_, _, _, h1⟩, by rw [h2]; exact h3,
    fun prove plonk => ⟨fun h4 => ?_, fun proof h4 h5 => ?_⟩⟩
  · unfold ConvProver.genBarToAbar
    rw [hkind, if_neg (by simp)]
    unfold OpenRec.data
    simp only [← hcom, e1, Res.bind_ok, h1, Res.unwrap_some, h4, Res.bind_panic]
  rw [h2] at h5
  obtain ⟨m, hm⟩ := hser ⟨o.bar, com, pf, proof, memo⟩
  obtain ⟨sig, hs1, hs2⟩ := hsig m
  refine ⟨⟨⟨o.bar, com, pf, proof, memo⟩, sig⟩, ?_, ?_, rfl, rfl, rfl⟩
  · unfold ConvProver.genBarToAbar
    rw [hkind, if_neg (by simp)]
    unfold OpenRec.data
    simp only [← hcom, e1, Res.bind_ok, h1, Res.unwrap_some, h4, hm, Res.ofOption_some, hs1, Res.pure_eq]
  · have e2' := e2
    rw [show ([((o.amount.toNat : ZMod Q.r), o.blinds.1 + o.blinds.2 * ((2 ^ 32 : Nat) : ZMod Q.r)), ((E.asNat o.ty : ZMod Q.r), o.tyBlind)]
      : List (ZMod Q.r × ZMod Q.r)) = o.data E from rfl, ofRec_coms] at e2'
    have hi' : inspectInput Q pf.comm beta lambda (pf.responses.map (·.1)) = some input := hi
    unfold ConvExt.verifyBarToAbar ConvExt.verifyBarToAbarBody
    simp only [hkind, Bool.false_eq_true, if_false, (show ({ E with plonk := plonk } : ConvExt S Q F Par Pf).recordComs o.bar = _ from C77_record_commitments E o.bar _ ho), Res.bind_ok, e2', hi', Res.unwrap_some]
    rw [if_pos h5]
    simp only [Res.bind_ok, hm, Res.ofOption_some, hs2, if_true]

/-- C80, confidential to anonymous: with keys made from the circuit of any consistent witness (such as the default one), a
complete PLONK prover and signatures that verify, a note is made for every record that is not transparent and its opening,
and it is accepted. -/
theorem C80_bar_to_abar_complete (hp : GoodParams p) (dbg : Bool) (hq : InspOk Q F) (hQ : 2 ^ 240 ≤ Q.r)
    (V : ConvProver S F Par Pf SigKey) (E : ConvExt S Q F Par Pf)
    (ser : BarToAbarBody S Q F Pf → Option Bytes) (hser : ∀ b, ∃ m, ser b = some m) (par : Par)
    (t : Payee F) (wit : InspWitness Q F) (hwit : wit.Consistent) (vars : BarVars F) (cs : CS F)
    (hb : buildBarToAbar p dbg Q t wit CS.new = some (vars, cs)) (hV : Completes V E par barToAbarLabel cs)
    (o : OpenRec S Q) (hkind : bothPlain o.bar = false) (ho : (RecOpening.ofRec E o).Opens E o.bar) (sk : SigKey) (key : S.PK)
    (hsig : ∀ m, ∃ sig, V.sign sk m = .ok sig ∧ E.sigVerify key m sig = true) (pk : PK F) (blind : F) (memo : Bytes × Bytes)
    (rand : List (ZMod Q.r × ZMod Q.r)) (hr : rand.length = 2) (r : F) :
    ∃ note, V.genBarToAbar p E dbg ser par o sk pk blind memo rand r = .ok note ∧ E.verifyBarToAbar ser par note key = .ok () ∧
      note.body.input = o.bar ∧ note.body.output = commit p pk blind (o.amount.toNat : F) (E.asNat o.ty : F) ∧
      note.body.memo = memo := by
  obtain ⟨cs', h1, -, h2, h3⟩ := barToAbar_reduces p hp dbg hq hQ V E ser hser par t wit hwit vars cs hb o hkind ho sk key hsig pk blind
    memo rand hr r
  obtain ⟨pf, h4, h5⟩ := hV cs' h1 h2
  exact (h3 V.prove E.plonk).2 pf h4 h5

end

section
variable [Fact P.r.Prime] [AddCommGroup G] [DecidableEq G] [Module (ZMod P.r) G]

/-- the note that is made is the one for the proof of a satisfied system with the gates of the keys -/
theorem abarToAr_reduces (hp : GoodParams p) (dbg : Bool) (hP : FoldOk P F) (hbits : P.bits ≤ 254) (modulus : Bytes)
    (hm : modulus.length = 32) (V : ConvProver S F Par Pf SigKey) (E : ConvExt S Q F Par Pf) (X : FoldExt P F G Hs Mp)
    (M : FoldProver P F G Hs Mp) (par : Par) (wit : FoldWitness P F) (hwit : wit.Consistent) (s : Payer F) (pk0 : PK F) (sk0 : SK F)
    (vars : AbarVars FoldVars) (cs : CS F)
    (hb : buildAbarToAr p (foldingCircuit p dbg P modulus wit) s pk0 sk0 CS.new = some (vars, cs))
    (uid blind : F) (path : List (MTNode F)) (hlen : path.length = s.path.length)
    (hg : ∀ n ∈ path, GoodNode n) (root : F) (amount : UInt64) (ty : S.AT) (key : S.PK) (keypair : FoldKey)
    (hk : keypair.x < P.r ∧ keypair.y < P.r ∧ keypair.s < P.r ∧ keypair.s < ofLE modulus)
    (hroot : payerRoot p (pkWords keypair.x keypair.y) ⟨uid, (amount.toNat : F), (E.asNat ty : F), blind, path⟩ = root) (h : Hs)
    (hM : M.Complete X abarToArFoldLabel h keypair) (rand : List (ZMod P.r × ZMod P.r)) (hr : rand.length = 3) (r : F) :
    ∃ cs' : CS F, cs'.shape = cs.shape ∧
      (∃ wit s pk sk vars, buildAbarToAr p (foldingCircuit p dbg P modulus wit) s pk sk CS.new = some (vars, cs')) ∧ Sat cs' cs'.value cs'.online ∧
      ∀ (prove : Par → String → List F → Res Pf) (plonk : Par → String → List F → Pf → Bool),
      (prove par abarToArLabel cs'.witness = .panic →
        { V with prove := prove }.genAbarToAr p { E with plonk := plonk } X M dbg modulus par uid blind path root amount ty key keypair h
          rand r = .panic) ∧
      ∀ proof, prove par abarToArLabel cs'.witness = .ok proof → plonk par abarToArLabel cs'.online proof = true →
    ∃ note, { V with prove := prove }.genAbarToAr p { E with plonk := plonk } X M dbg modulus par uid blind path root amount ty key
        keypair h rand r = .ok note ∧
      { E with plonk := plonk }.verifyAbarToAr X par note root h = .ok () ∧
      note.input = nullify p (pkWords keypair.x keypair.y) (skWords keypair.s) uid (amount.toNat : F) (E.asNat ty : F) ∧
      note.output = ⟨.plain amount, .plain ty, key⟩ := by
  obtain ⟨inst, w, c1, c2, c3, c4, c5, c6, c7, c8⟩ := folding_honest p P hP hbits X M abarToArFoldLabel h keypair hM (ofLE modulus) hk rand hr r
  rw [← c3, ← c4] at hroot
  obtain ⟨vars', cs', foldPub, h1, hv, h2, h3⟩ := C74_abar_to_ar_complete p hp dbg P hP modulus hm w c2
    ⟨uid, (amount.toNat : F), (E.asNat ty : F), blind, path⟩ root hg hroot
  refine ⟨cs', (C74_abar_to_ar_uniform p _ _ (fun pk sk =>
    C72_folding_uniform p dbg P hP modulus w wit c2.consistent hwit pk sk) _ _ _ _ _ _ hlen).shape h1 hb, ⟨_, _, _, _, _, h1⟩,
    by rw [h2]; exact h3, fun prove plonk => ⟨fun h4 => ?_, fun proof h4 h5 => ?_⟩⟩
  · rw [c3, c4, c5] at h1
    unfold ConvProver.genAbarToAr
    simp only [c1, Res.bind_ok, h1, Res.unwrap_some, h4, Res.bind_panic]
  rw [h2] at h5
  rw [c3, c4, c5] at h1 h5
  refine ⟨⟨nullify p (pkWords keypair.x keypair.y) (skWords keypair.s) uid (amount.toNat : F) (E.asNat ty : F),
    ⟨.plain amount, .plain ty, key⟩, root, proof, inst⟩, ?_, ?_, rfl, rfl⟩
  · unfold ConvProver.genAbarToAr
    simp only [c1, Res.bind_ok, h1, Res.unwrap_some, h4, Res.pure_eq]
  · unfold ConvExt.verifyAbarToAr FoldInst.input
    simp only [c6, Res.bind_ok, c7, c8, hv, Res.unwrap_some, ne_eq, not_true_eq_false, if_false]
    rw [if_pos h5]

/-- C80, anonymous to transparent: with keys made from the circuit of any consistent folding and any path of the same length, and
complete provers, a note is made for every key pair and every record of this key with a path to `root`, and it is accepted
for that root and hash. -/
theorem C80_abar_to_ar_complete (hp : GoodParams p) (dbg : Bool) (hP : FoldOk P F) (hbits : P.bits ≤ 254) (modulus : Bytes)
    (hm : modulus.length = 32) (V : ConvProver S F Par Pf SigKey) (E : ConvExt S Q F Par Pf) (X : FoldExt P F G Hs Mp)
    (M : FoldProver P F G Hs Mp) (par : Par) (wit : FoldWitness P F) (hwit : wit.Consistent) (s : Payer F) (pk0 : PK F) (sk0 : SK F)
    (vars : AbarVars FoldVars) (cs : CS F)
    (hb : buildAbarToAr p (foldingCircuit p dbg P modulus wit) s pk0 sk0 CS.new = some (vars, cs))
    (hV : Completes V E par abarToArLabel cs) (uid blind : F) (path : List (MTNode F)) (hlen : path.length = s.path.length)
    (hg : ∀ n ∈ path, GoodNode n) (root : F) (amount : UInt64) (ty : S.AT) (key : S.PK) (keypair : FoldKey)
    (hk : keypair.x < P.r ∧ keypair.y < P.r ∧ keypair.s < P.r ∧ keypair.s < ofLE modulus)
    (hroot : payerRoot p (pkWords keypair.x keypair.y) ⟨uid, (amount.toNat : F), (E.asNat ty : F), blind, path⟩ = root) (h : Hs)
    (hM : M.Complete X abarToArFoldLabel h keypair) (rand : List (ZMod P.r × ZMod P.r)) (hr : rand.length = 3) (r : F) :
    ∃ note, V.genAbarToAr p E X M dbg modulus par uid blind path root amount ty key keypair h rand r = .ok note ∧
      E.verifyAbarToAr X par note root h = .ok () ∧
      note.input = nullify p (pkWords keypair.x keypair.y) (skWords keypair.s) uid (amount.toNat : F) (E.asNat ty : F) ∧
      note.output = ⟨.plain amount, .plain ty, key⟩ := by
  obtain ⟨cs', h1, -, h2, h3⟩ := abarToAr_reduces p hp dbg hP hbits modulus hm V E X M par wit hwit s pk0 sk0 vars cs hb uid blind path hlen
    hg root amount ty key keypair hk hroot h hM rand hr r
  obtain ⟨pf, h4, h5⟩ := hV cs' h1 h2
  exact (h3 V.prove E.plonk).2 pf h4 h5

variable [Fact Q.r.Prime] [AddCommGroup S.G] [DecidableEq S.G] [Module (ZMod Q.r) S.G]

/-- the note that is made is the one for the proof of a satisfied system with the gates of the keys -/
theorem abarToBar_reduces (hp : GoodParams p) (dbg : Bool) (hP : FoldOk P F) (hbits : P.bits ≤ 254) (hq : InspOk Q F)
    (hQ : 2 ^ 240 ≤ Q.r) (modulus : Bytes)
    (hm : modulus.length = 32) (V : ConvProver S F Par Pf SigKey) (E : ConvExt S Q F Par Pf) (X : FoldExt P F G Hs Mp)
    (M : FoldProver P F G Hs Mp) (par : Par) (wit : FoldWitness P F) (hwit : wit.Consistent) (insp : InspWitness Q F)
    (hinsp : insp.Consistent) (s : Payer F) (pk0 : PK F) (sk0 : SK F) (vars : AbarBarVars F FoldVars) (cs : CS F)
    (hb : buildAbarToBar p (foldingCircuit p dbg P modulus wit) dbg Q s pk0 sk0 insp CS.new = some (vars, cs))
    (uid blind : F) (path : List (MTNode F)) (hlen : path.length = s.path.length)
    (hg : ∀ n ∈ path, GoodNode n) (root : F) (o : OpenRec S Q) (hkind : bothPlain o.bar = false)
    (ho : (RecOpening.ofRec E o).Opens E o.bar) (keypair : FoldKey)
    (hk : keypair.x < P.r ∧ keypair.y < P.r ∧ keypair.s < P.r ∧ keypair.s < ofLE modulus)
    (hroot : payerRoot p (pkWords keypair.x keypair.y) ⟨uid, (o.amount.toNat : F), (E.asNat o.ty : F), blind, path⟩ = root) (h : Hs)
    (hM : M.Complete X abarToBarFoldLabel h keypair) (rand : List (ZMod P.r × ZMod P.r)) (hr : rand.length = 3) (r : F)
    (irand : List (ZMod Q.r × ZMod Q.r)) (hir : irand.length = 2) (ir : F) :
    ∃ cs' : CS F, cs'.shape = cs.shape ∧
      (∃ fw s pk sk wit vars, buildAbarToBar p (foldingCircuit p dbg P modulus fw) dbg Q s pk sk wit CS.new = some (vars, cs')) ∧ Sat cs' cs'.value cs'.online ∧
      ∀ (prove : Par → String → List F → Res Pf) (plonk : Par → String → List F → Pf → Bool),
      (prove par abarToBarLabel cs'.witness = .panic →
        { V with prove := prove }.genAbarToBar p { E with plonk := plonk } X M dbg modulus par uid blind path root o keypair h rand r
          irand ir = .panic) ∧
      ∀ proof, prove par abarToBarLabel cs'.witness = .ok proof → plonk par abarToBarLabel cs'.online proof = true →
    ∃ note, { V with prove := prove }.genAbarToBar p { E with plonk := plonk } X M dbg modulus par uid blind path root o keypair h rand r
        irand ir = .ok note ∧
      { E with plonk := plonk }.verifyAbarToBar X par note root h = .ok () ∧
      note.input = nullify p (pkWords keypair.x keypair.y) (skWords keypair.s) uid (o.amount.toNat : F) (E.asNat o.ty : F) ∧
      note.output = o.bar := by
  have hx : o.amount.toNat < 2 ^ 64 ∧ o.amount.toNat < Q.r :=
    have h := o.amount.toNat_lt
    ⟨h, lt_of_lt_of_le h (le_trans (Nat.pow_le_pow_right (by norm_num) (by norm_num)) hQ)⟩
  have hy : E.asNat o.ty < 2 ^ 240 ∧ E.asNat o.ty < Q.r :=
    have h : E.asNat o.ty < 2 ^ 240 := ho.1.2.2
    ⟨h, lt_of_lt_of_le h hQ⟩
  obtain ⟨inst, w, c1, c2, c3, c4, c5, c6, c7, c8⟩ := folding_honest p P hP hbits X M abarToBarFoldLabel h keypair hM (ofLE modulus) hk rand hr r
  set nul : F := nullify p (pkWords keypair.x keypair.y) (skWords keypair.s) uid (o.amount.toNat : F) (E.asNat o.ty : F) with hnul
  obtain ⟨pf, ins, beta, lambda, tr', e1, e2, e3⟩ := inspection_honest p Q hq E.gens E.oracle [.label abarToBarLabel, .bound nul] irand hir ir
    _ _ hx hy (o.blinds.1 + o.blinds.2 * ((2 ^ 32 : Nat) : ZMod Q.r)) o.tyBlind
  rw [← c3, ← c4] at hroot
  obtain ⟨vars', cs', input, foldPub, h1, hi, hv, h2, h3⟩ := C76_abar_to_bar_complete p hp dbg P Q hP hq modulus hm w c2 _ _ _ e3
    ⟨uid, (o.amount.toNat : F), (E.asNat o.ty : F), blind, path⟩ root rfl rfl hg hroot
  refine ⟨cs', (C76_abar_to_bar_uniform p _ _ (fun pk sk =>
    C72_folding_uniform p dbg P hP modulus w wit c2.consistent hwit pk sk) dbg Q hq _ _ _ _ _ _ hlen _ _ e3.consistent hinsp).shape h1 hb,
    ⟨_, _, _, _, _, _, h1⟩, by rw [h2]; exact h3, fun prove plonk => ⟨fun h4 => ?_, fun proof h4 h5 => ?_⟩⟩
  · rw [c3, c4, c5] at h1
    unfold ConvProver.genAbarToBar
    rw [hkind, if_neg (by simp)]
    unfold OpenRec.data
    simp only [← hnul, e1, c1, Res.bind_ok, h1, Res.unwrap_some, h4, Res.bind_panic]
  rw [h2] at h5
  rw [c3, c4, c5] at h1 h5
  refine ⟨⟨nul, o.bar, pf, root, proof, inst⟩, ?_, ?_, rfl, rfl⟩
  · unfold ConvProver.genAbarToBar
    rw [hkind, if_neg (by simp)]
    unfold OpenRec.data
    simp only [← hnul, e1, c1, Res.bind_ok, h1, Res.unwrap_some, h4, Res.pure_eq]
  · have e2' := e2
    rw [show ([((o.amount.toNat : ZMod Q.r), o.blinds.1 + o.blinds.2 * ((2 ^ 32 : Nat) : ZMod Q.r)), ((E.asNat o.ty : ZMod Q.r), o.tyBlind)]
      : List (ZMod Q.r × ZMod Q.r)) = o.data E from rfl, ofRec_coms] at e2'
    have hi' : inspectInput Q pf.comm beta lambda (pf.responses.map (·.1)) = some input := hi
    unfold ConvExt.verifyAbarToBar ConvExt.checkAbarToBar FoldInst.input
    simp only [ne_eq, not_true_eq_false, if_false, hkind, Bool.false_eq_true, (show ({ E with plonk := plonk } : ConvExt S Q F Par Pf).recordComs o.bar = _ from C77_record_commitments E o.bar _ ho), Res.bind_ok, e2', c6, c7,
      c8, hv, hi', Res.unwrap_some]
    rw [if_pos h5]

/-- C80, anonymous to confidential: as above, for every new record that is not transparent and its opening. -/
theorem C80_abar_to_bar_complete (hp : GoodParams p) (dbg : Bool) (hP : FoldOk P F) (hbits : P.bits ≤ 254) (hq : InspOk Q F)
    (hQ : 2 ^ 240 ≤ Q.r) (modulus : Bytes)
    (hm : modulus.length = 32) (V : ConvProver S F Par Pf SigKey) (E : ConvExt S Q F Par Pf) (X : FoldExt P F G Hs Mp)
    (M : FoldProver P F G Hs Mp) (par : Par) (wit : FoldWitness P F) (hwit : wit.Consistent) (insp : InspWitness Q F)
    (hinsp : insp.Consistent) (s : Payer F) (pk0 : PK F) (sk0 : SK F) (vars : AbarBarVars F FoldVars) (cs : CS F)
    (hb : buildAbarToBar p (foldingCircuit p dbg P modulus wit) dbg Q s pk0 sk0 insp CS.new = some (vars, cs))
    (hV : Completes V E par abarToBarLabel cs) (uid blind : F) (path : List (MTNode F)) (hlen : path.length = s.path.length)
    (hg : ∀ n ∈ path, GoodNode n) (root : F) (o : OpenRec S Q) (hkind : bothPlain o.bar = false)
    (ho : (RecOpening.ofRec E o).Opens E o.bar) (keypair : FoldKey)
    (hk : keypair.x < P.r ∧ keypair.y < P.r ∧ keypair.s < P.r ∧ keypair.s < ofLE modulus)
    (hroot : payerRoot p (pkWords keypair.x keypair.y) ⟨uid, (o.amount.toNat : F), (E.asNat o.ty : F), blind, path⟩ = root) (h : Hs)
    (hM : M.Complete X abarToBarFoldLabel h keypair) (rand : List (ZMod P.r × ZMod P.r)) (hr : rand.length = 3) (r : F)
    (irand : List (ZMod Q.r × ZMod Q.r)) (hir : irand.length = 2) (ir : F) :
    ∃ note, V.genAbarToBar p E X M dbg modulus par uid blind path root o keypair h rand r irand ir = .ok note ∧
      E.verifyAbarToBar X par note root h = .ok () ∧
      note.input = nullify p (pkWords keypair.x keypair.y) (skWords keypair.s) uid (o.amount.toNat : F) (E.asNat o.ty : F) ∧
      note.output = o.bar := by
  obtain ⟨cs', h1, -, h2, h3⟩ := abarToBar_reduces p hp dbg hP hbits hq hQ modulus hm V E X M par wit hwit insp hinsp s pk0 sk0 vars cs hb uid
    blind path hlen hg root o hkind ho keypair hk hroot h hM rand hr r irand hir ir
  obtain ⟨pf, h4, h5⟩ := hV cs' h1 h2
  exact (h3 V.prove E.plonk).2 pf h4 h5

end

end

end Verif.Anon
