import Verif.Anon.ConvertGen

/-!
The hypotheses of C77 to C81 are met over the field, the hash and the parameters of the code.  The argument system of the
examples is the ideal one, whose proofs are assignments; the groups are the scalar fields themselves.
-/

namespace Verif.Anon

open Verif.Plonk Verif.Plonk.Spec Verif.SimFr Verif.SimFr.Spec Verif.StateComm Verif.Anon.Spec
open Verif.DelegatedSchnorr (Tr Msg)
open Verif.Xfr (BlindAssetRecord splitU64)

@[reducible] def convT : Xfr.Types where
  F := ZMod ristretto.r
  G := ZMod ristretto.r
  CG := ZMod ristretto.r
  AT := Nat
  PK := Nat
  EK := Unit
  Ct := Unit
  IP := Unit
  ACt := Unit
  IPf := Unit
  SC := Unit
  RP := Unit
  AP := Unit
  MP := Unit
  TPf := Unit
  OM := Unit
  KP := Unit
  Sg := Nat × Bytes

/-- proofs are assignments, parameters are systems -/
noncomputable def convE (oracle : Tr (ZMod ristretto.r) (ZMod ristretto.r) (ZMod Bls.r) → ZMod ristretto.r) :
    ConvExt convT ristretto (ZMod Bls.r) (CS (ZMod Bls.r)) (Nat → ZMod Bls.r) where
  gens := barGens
  decompress := some
  asNat := (· % 2 ^ 240)
  oracle := oracle
  plonk cs _ pubs w := by
    classical
    exact decide (pubs.length = cs.pubVars.length ∧ Sat cs w pubs)
  sigVerify k m s := decide (s = (k, m))

def convV : ConvProver convT (ZMod Bls.r) (CS (ZMod Bls.r)) (Nat → ZMod Bls.r) Nat where
  prove _ _ w := .ok (fun i => w[i]?.getD 0)
  sign k m := .ok (k, m)

def foldX : FoldExt secq256k1 (ZMod Bls.r) (ZMod secq256k1.r) Unit (List (ZMod secq256k1.r)) where
  gens := ⟨1, 7⟩
  oracle tr := (tr.length : ZMod secq256k1.r)
  scalarMul _ _ coms mul := if coms = mul then some [] else none

/-- commitments to the key with blinding factors 10, 20 and 30 -/
def foldComs (key : FoldKey) : List (ZMod secq256k1.r) :=
  [(key.x : ZMod secq256k1.r) + 10 * 7, (key.y : ZMod secq256k1.r) + 20 * 7, (key.s : ZMod secq256k1.r) + 30 * 7]

def foldM : FoldProver secq256k1 (ZMod Bls.r) (ZMod secq256k1.r) Unit (List (ZMod secq256k1.r)) where
  mul _ _ key :=
    .ok (foldComs key, foldComs key, [10, 20, 30], [])

theorem foldM_complete (label : String) (key : FoldKey) : foldM.Complete foldX label () key := by
  refine ⟨foldComs key, 10, 20, 30, [], ?_, ?_⟩
  · simp only [foldX, foldM, foldComs, smul_eq_mul, mul_one]
  · simp only [foldX, foldComs, smul_eq_mul, mul_one]
    rfl

theorem conv_completes (H) (cs : CS (ZMod Bls.r)) (label : String) : Completes convV (convE H) cs label cs := by
  intro cs' hsh hs
  refine ⟨cs'.value, rfl, ?_⟩
  unfold convE
  simp only [decide_eq_true_eq]
  refine ⟨?_, Sat.shape hsh.symm hs⟩
  rw [show cs.pubVars = cs'.pubVars from (show cs.shape.pubVars = cs'.shape.pubVars by rw [hsh])]
  simp [CS.online]

theorem conv_knows (H) (cs : CS (ZMod Bls.r)) (label : String) : Knows (convE H) cs label cs id := by
  intro pubs pf h
  unfold convE at h
  simp only [decide_eq_true_eq] at h
  exact h

/-- an encoding of bodies -/
def serAr : ArToAbarBody convT (ZMod Bls.r) (Nat → ZMod Bls.r) → Option Bytes := fun b => some (b.memo.1 ++ b.memo.2)
def serBar : BarToAbarBody convT ristretto (ZMod Bls.r) (Nat → ZMod Bls.r) → Option Bytes := fun b => some (b.memo.1 ++ b.memo.2)

/-! ### Transparent to anonymous -/

def plainRec : OpenRec convT ristretto := ⟨⟨.plain 7, .plain 9, 1⟩, 7, (0, 0), 9, 0⟩

/-- a note that is made and accepted (C80); what it says of openings of its commitment (C77), of the signature (C81) and of
the batch of two copies (C78) -/
example (H) : ∃ par note, convV.genArToAbar Rescue.blsParams (convE H) serAr par plainRec 1 samplePk 8 ([1], [2]) = .ok note ∧
    (convE H).verifyArToAbar serAr par note = .ok () ∧
    (∀ y : CommitIn (ZMod Bls.r), y.eval Rescue.blsParams = note.body.output →
      (y.amount = (7 : Nat) ∧ y.ty = (9 : Nat)) ∨ ∃ a b, Collides Rescue.blsParams a b) ∧
    note.signature = (1, [1, 2]) ∧ (convE H).batchArToAbar serAr par [note, note] = true := by
  have hp := goodBls
  generalize Rescue.blsParams = p at hp
  obtain ⟨vars, cs, hb, -, -⟩ := C73_ar_to_abar_complete p hp samplePayee
  obtain ⟨note, h1, h2, h3, h4, h5⟩ := C80_ar_to_abar_complete p hp convV (convE H) serAr (fun b => ⟨_, rfl⟩) cs samplePayee vars cs hb
    (conv_completes H cs _) plainRec ⟨rfl, rfl⟩ 1 (fun m => ⟨(1, m), rfl, by simp [convE, plainRec]⟩) samplePk 8 ([1], [2])
  refine ⟨cs, note, h1, h2, fun y hy => ?_, ?_, ?_⟩
  · obtain ⟨a, ty, e1, e2, h⟩ := C77_ar_to_abar_conserves p hp (convE H) serAr cs samplePayee vars cs hb id (conv_knows H cs _) note h2
    rw [h3] at e1 e2
    simp only [plainRec, Xfr.XfrAmount.plain.injEq, Xfr.XfrAssetType.plain.injEq] at e1 e2
    subst e1 e2
    rcases h y hy with h | h
    · exact .inl h
    · exact .inr ⟨_, _, h⟩
  · obtain ⟨m, e1, e2⟩ := C81_ar_to_abar_signed _ _ _ _ h2
    simp only [serAr, h5, Option.some.injEq] at e1
    simp only [convE, decide_eq_true_eq, h3] at e2
    rw [e2, ← e1]
    rfl
  · rw [C78_ar_to_abar_batch]
    simpa using h2

/-! ### Anonymous to transparent -/

/-- a tree with one record, the note that pays it out (C80), and what it says (C77) -/
example (H) : ∃ par root path note, convV.genAbarToAr Rescue.blsParams (convE H) foldX foldM true secpOrderBytes par ((0 : Nat) : ZMod Bls.r) 8
      path root 7 9 1 ⟨5, 7, 3⟩ () [(100, 1), (200, 2), (300, 3)] 99 = .ok note ∧
    (convE H).verifyAbarToAr foldX par note root () = .ok () ∧
    ((∃ pk sk blind, ∃ j : Nat, [foldCom Rescue.blsParams][j]? = some (commit Rescue.blsParams pk blind (7 : Nat) (9 : Nat)) ∧
        note.input = nullify Rescue.blsParams pk sk (j : ZMod Bls.r) (7 : Nat) (9 : Nat)) ∨
      ∃ pk s, SpendBreak Rescue.blsParams [foldCom Rescue.blsParams] pk s) := by
  obtain ⟨comm, hh⟩ := sampleFold_honest
  have hp := goodBls
  generalize Rescue.blsParams = p at hp hh
  obtain ⟨t, q, ht, hroot, hpr, hlen, hgood, hcur, hcap⟩ := sampleTree p
  obtain ⟨vars, cs, foldPub, hb, hv, hon, hs⟩ := C74_abar_to_ar_complete p hp true secq256k1 secq_fold secpOrderBytes
    secpOrder_ok.1 (sampleFold comm) hh (foldPayer q.nodes) q.root hgood hpr
  obtain ⟨note, h1, h2, h3, h4⟩ := C80_abar_to_ar_complete p hp true secq_fold (by decide) secpOrderBytes secpOrder_ok.1 convV (convE H) foldX
    foldM cs (sampleFold comm) hh.consistent (foldPayer q.nodes) _ _ vars cs hb (conv_completes H cs _) ((0 : Nat) : ZMod Bls.r) 8
    (foldPayer q.nodes).path rfl hgood q.root 7 9 1 ⟨5, 7, 3⟩
    ⟨(by decide +kernel : 5 < secq256k1.r), (by decide +kernel : 7 < secq256k1.r), (by decide +kernel : 3 < secq256k1.r),
      (by decide +kernel : 3 < ofLE secpOrderBytes)⟩ hpr () (foldM_complete _ _) [(100, 1), (200, 2), (300, 3)] rfl 99
  refine ⟨cs, q.root, (foldPayer q.nodes).path, note, h1, h2, ?_⟩
  obtain ⟨a, ty, ch, e1, e2, -, e3⟩ := C77_abar_to_ar_conserves p hp (convE H) foldX cs true secq_fold secpOrderBytes secpOrder_ok.1
    secpOrder_ok.2.1 (sampleFold comm) (foldPayer q.nodes) hlen _ _ vars cs hb id (conv_knows H cs _) note q.root () h2 sampleCodec _ hcap
    [foldCom p] hcur t ht hroot
  rw [h4] at e1 e2
  simp only [Xfr.XfrAmount.plain.injEq, Xfr.XfrAssetType.plain.injEq] at e1 e2
  subst e1 e2
  rcases e3 with ⟨j, g1, g2, -⟩ | g
  · exact .inl ⟨_, _, _, j, g1, g2⟩
  · exact .inr ⟨_, _, g⟩

/-! ### Confidential to anonymous -/

/-- the delegated Schnorr proof of a note -/
theorem genBarToAbar_schnorr {S : Xfr.Types} {Q : SimFr.Params} {F Par Pf SigKey : Type} [Field F] [DecidableEq F] [ScalarRepr F]
    (p : Rescue.Params F) [Fact Q.r.Prime] [AddCommGroup S.G] [Module (ZMod Q.r) S.G] (V : ConvProver S F Par Pf SigKey)
    (E : ConvExt S Q F Par Pf) (dbg : Bool) (ser : BarToAbarBody S Q F Pf → Option Bytes) (par : Par) (o : OpenRec S Q) (sk : SigKey)
    (pk : PK F) (blind : F) (memo : Bytes × Bytes) (rand : List (ZMod Q.r × ZMod Q.r)) (r : F) (note : BarToAbarNote S Q F Pf) (k : F)
    (hk : stateComm p Q ((o.data E).map (·.1.val)) (rand.map (·.1.val)) r = some k)
    (h : V.genBarToAbar p E dbg ser par o sk pk blind memo rand r = .ok note) :
    ∃ beta, note.body.schnorr = ⟨k, rand.map (fun q => DelegatedSchnorr.commit E.gens q.1 q.2),
        List.zipWith (fun d q => (beta * d.1 + q.1, beta * d.2 + q.2)) (o.data E) rand⟩ ∧
      beta = E.oracle (DelegatedSchnorr.point1 E.gens
        [.label barToAbarLabel, .bound (commit p pk blind (o.amount.toNat : F) (E.asNat o.ty : F))]
        ((o.data E).map (fun d => DelegatedSchnorr.commit E.gens d.1 d.2)) k (rand.map (fun q => DelegatedSchnorr.commit E.gens q.1 q.2))) := by
  unfold ConvProver.genBarToAbar at h
  split at h
  · cases h
  simp only [] at h
  obtain ⟨⟨pf, insp, beta, lambda, tr⟩, h1, h⟩ := Res.bind_eq_ok.mp h
  simp only [] at h
  obtain ⟨⟨_, cs⟩, h2, h⟩ := Res.bind_eq_ok.mp h
  obtain ⟨proof, h3, h⟩ := Res.bind_eq_ok.mp h
  obtain ⟨m, h4, h⟩ := Res.bind_eq_ok.mp h
  obtain ⟨sig, h5, h⟩ := Res.bind_eq_ok.mp h
  obtain rfl := Res.ok.inj h
  unfold proveSchnorr at h1
  rw [hk] at h1
  simp only [DelegatedSchnorr.prove, List.length_map, if_true] at h1
  obtain ⟨e, -⟩ := Prod.mk.inj (Res.ok.inj h1)
  exact ⟨_, e.symm, rfl⟩

/-- challenges that depend on the length of the transcript: at the first challenge `b + 2`, at the second `l + 1` -/
def convH (b l : Fin 2) : Tr (ZMod ristretto.r) (ZMod ristretto.r) (ZMod Bls.r) → ZMod ristretto.r :=
  fun tr => if tr.length = 10 then ((b.val + 2 : Nat) : ZMod ristretto.r) else ((l.val + 1 : Nat) : ZMod ristretto.r)

theorem convH_ne : (∀ l : Fin 2, ((((0 : Fin 2).val + 2 : Nat) : ZMod ristretto.r)) ≠ (((1 : Fin 2).val + 2 : Nat) : ZMod ristretto.r)) ∧
    ((((0 : Fin 2).val + 1 : Nat) : ZMod ristretto.r)) ≠ (((1 : Fin 2).val + 1 : Nat) : ZMod ristretto.r) := by
  have hinj : ∀ a b : Nat, a < ristretto.r → b < ristretto.r →
      ((a : Nat) : ZMod ristretto.r) = ((b : Nat) : ZMod ristretto.r) → a = b := by
    intro a b ha hb h
    rw [ZMod.natCast_eq_natCast_iff', Nat.mod_eq_of_lt ha, Nat.mod_eq_of_lt hb] at h
    exact h
  have hr : 10 < ristretto.r := by decide +kernel
  refine ⟨fun _ h => ?_, fun h => ?_⟩
  · have := hinj _ _ (by simp; omega) (by simp; omega) h
    simp at this
  · have := hinj _ _ (by simp; omega) (by simp; omega) h
    simp at this

/-- a confidential record of amount `a` and type 9, with blinding factors 5, 6 and 11 -/
def confRec (a : UInt64) : OpenRec convT ristretto :=
  ⟨⟨.conf (((splitU64 a).1.toNat : ZMod ristretto.r) + 5 * 7) (((splitU64 a).2.toNat : ZMod ristretto.r) + 6 * 7), .conf (9 + 11 * 7), 1⟩,
    a, (5, 6), 9, 11⟩

theorem confRec_opens (H) (a : UInt64) : (RecOpening.ofRec (convE H) (confRec a)).Opens (convE H) (confRec a).bar := by
  refine ⟨⟨(splitU64 a).1.toNat_lt, (splitU64 a).2.toNat_lt, (by norm_num : 9 < 2 ^ 240)⟩, ⟨?_, ?_⟩, ?_⟩
  all_goals
    show some _ = some _
    simp [convE, barGens, RecOpening.ofRec, confRec, smul_eq_mul]

theorem ristretto_ge : 2 ^ 240 ≤ ristretto.r := by decide +kernel

/-- the samples of the delegated Schnorr prover -/
def confRand : List (ZMod ristretto.r × ZMod ristretto.r) := [(100, 1), (200, 2)]

def confRandomizers : List (ZMod ristretto.r) := confRand.map (fun q => DelegatedSchnorr.commit barGens q.1 q.2)

/-- what is committed to -/
def confData (a : UInt64) : List (ZMod ristretto.r × ZMod ristretto.r) :=
  [((a.toNat : ZMod ristretto.r), 5 + 6 * ((2 ^ 32 : Nat) : ZMod ristretto.r)), ((9 : Nat), 11)]

/-- the responses to the first challenge `b + 2` -/
def confResponses (a : UInt64) (b : Fin 2) : List (ZMod ristretto.r × ZMod ristretto.r) :=
  List.zipWith (fun d q => (((b.val + 2 : Nat) : ZMod ristretto.r) * d.1 + q.1, ((b.val + 2 : Nat) : ZMod ristretto.r) * d.2 + q.2))
    (confData a) confRand

/-- a commitment to the state exists -/
theorem conf_state (p : Rescue.Params (ZMod Bls.r)) (a : UInt64) :
    ∃ k, stateComm p ristretto ((confData a).map (·.1.val)) (confRand.map (·.1.val)) (99 : ZMod Bls.r) = some k :=
  (C65_state_commitment_total p ristretto ⟨by decide, by decide⟩ (by decide) _ _ 99).mpr (by simp [confData, confRand])

/-- four runs of the generator with the challenges `convH` (C80), and the conclusion of `C77_bar_to_abar_conserves` for them -/
example : ∃ (par : CS (ZMod Bls.r)) (note : Fin 2 → Fin 2 → BarToAbarNote convT ristretto (ZMod Bls.r) (Nat → ZMod Bls.r)),
    (∀ b l, convV.genBarToAbar Rescue.blsParams (convE (convH b l)) true serBar par (confRec 17179869187) 1 samplePk 8 ([1], [])
      confRand 99 = .ok (note b l) ∧ (convE (convH b l)).verifyBarToAbar serBar par (note b l) 1 = .ok ()) ∧
    ∀ y : CommitIn (ZMod Bls.r), y.eval Rescue.blsParams = (note 0 0).body.output →
      (y.amount = ((17179869187 : Nat) : ZMod Bls.r) ∧ y.ty = ((9 : Nat) : ZMod Bls.r)) ∨ (∃ a b, Collides Rescue.blsParams a b) ∨
      (∃ a b, Collide Rescue.blsParams a b) ∨ ∃ v v' t s s' c c', Relation (K := ZMod ristretto.r) barGens v v' t s s' c c' := by
  obtain ⟨icomm, hh⟩ := sampleInsp_honest
  have hp := goodBls
  generalize Rescue.blsParams = p at hp hh
  obtain ⟨vars, cs, input, hb, -, -, -⟩ := C75_bar_to_abar_complete p hp true ristretto ristretto_insp (sampleInsp icomm) 7 9 hh 8 samplePk
  have gen := fun b l => C80_bar_to_abar_complete p hp true ristretto_insp ristretto_ge convV (convE (convH b l)) serBar (fun b => ⟨_, rfl⟩) cs _ _
    hh.consistent vars cs hb (conv_completes _ cs _) (confRec 17179869187) rfl (confRec_opens _ _) 1 1 (fun m => ⟨(1, m), rfl, by simp [convE]⟩)
    samplePk 8 ([1], []) confRand rfl 99
  choose note h1 h2 h3 h4 h5 using gen
  refine ⟨cs, note, fun b l => ⟨h1 b l, h2 b l⟩, fun y hy => ?_⟩
  obtain ⟨k, hk⟩ := conf_state p 17179869187
  have hsch : ∀ b l, (note b l).body.schnorr = ⟨k, confRandomizers, confResponses 17179869187 b⟩ := by
    intro b l
    obtain ⟨beta, e1, e2⟩ := genBarToAbar_schnorr p convV (convE (convH b l)) true serBar cs (confRec 17179869187) 1 samplePk 8 ([1], []) _ 99
      (note b l) k hk (h1 b l)
    have : beta = ((b.val + 2 : Nat) : ZMod ristretto.r) := by
      rw [e2]
      unfold convE convH
      simp only []
      rw [if_pos (by simp [DelegatedSchnorr.point1, OpenRec.data, confRand])]
    subst this
    exact e1
  have acc : ∀ b l, ({ convE (convH 0 0) with oracle := convH b l } : ConvExt convT ristretto (ZMod Bls.r) _ _).verifyBarToAbarBody cs
      (confRec 17179869187).bar (note 0 0).body.output ⟨k, confRandomizers, confResponses 17179869187 b⟩ (note b l).body.proof = .ok () := by
    intro b l
    have := h2 b l
    unfold ConvExt.verifyBarToAbar at this
    obtain ⟨_, e, -⟩ := Res.bind_eq_ok.mp this
    rw [h3, h4, hsch] at e
    rw [h4]
    exact e
  rcases C77_bar_to_abar_conserves p hp true ristretto_insp ristretto_ge (convE (convH 0 0)) cs _ _ vars cs hb id (conv_knows _ cs _)
    (confRec 17179869187).bar (note 0 0).body.output k confRandomizers (confResponses 17179869187) (fun b l => (note b l).body.proof) convH acc
    (RecOpening.ofRec (convE (convH 0 0)) (confRec 17179869187)) (confRec_opens _ _)
    (fun b => ((b.val + 2 : Nat) : ZMod ristretto.r)) (fun _ l => ((l.val + 1 : Nat) : ZMod ristretto.r))
    (fun b l => by unfold convH; rw [if_pos (by simp [DelegatedSchnorr.point1, confRandomizers, confRand])]) (convH_ne.1 0)
    (fun b l => by
      unfold convH
      rw [if_neg (by simp [DelegatedSchnorr.point1, DelegatedSchnorr.point2, confRandomizers, confRand, confResponses, confData])])
    (fun _ => convH_ne.2) y hy with h | ⟨b, l, h⟩ | ⟨b, l, h⟩ | h | h
  · exact .inl h
  · exact .inr (.inl ⟨_, _, h⟩)
  · exact .inr (.inr (.inl ⟨_, _, h⟩))
  · exact .inr (.inr (.inr ⟨_, _, _, _, _, _, _, h⟩))
  · exact .inr (.inr (.inr ⟨_, _, _, _, _, _, _, h⟩))

/-! ### Anonymous to confidential -/

theorem genAbarToBar_schnorr {S : Xfr.Types} {P Q : SimFr.Params} {F Par Pf SigKey G Hs Mp : Type} [Field F] [DecidableEq F] [ScalarRepr F]
    (p : Rescue.Params F) [Fact Q.r.Prime] [AddCommGroup S.G] [Module (ZMod Q.r) S.G] [Fact P.r.Prime] [AddCommGroup G] [Module (ZMod P.r) G]
    (V : ConvProver S F Par Pf SigKey) (E : ConvExt S Q F Par Pf) (X : FoldExt P F G Hs Mp)
    (M : FoldProver P F G Hs Mp) (dbg : Bool) (modulus : Bytes) (par : Par) (uid blind : F) (path : List (MTNode F)) (root : F)
    (o : OpenRec S Q) (keypair : FoldKey) (hs : Hs) (rand : List (ZMod P.r × ZMod P.r)) (r : F)
    (irand : List (ZMod Q.r × ZMod Q.r)) (ir : F) (note : AbarToBarNote S P Q F Pf G Mp) (k : F)
    (hk : stateComm p Q ((o.data E).map (·.1.val)) (irand.map (·.1.val)) ir = some k)
    (h : V.genAbarToBar p E X M dbg modulus par uid blind path root o keypair hs rand r irand ir = .ok note) :
    ∃ beta, note.schnorr = ⟨k, irand.map (fun q => DelegatedSchnorr.commit E.gens q.1 q.2),
        List.zipWith (fun d q => (beta * d.1 + q.1, beta * d.2 + q.2)) (o.data E) irand⟩ ∧
      beta = E.oracle (DelegatedSchnorr.point1 E.gens
        [.label abarToBarLabel, .bound (nullify p (pkWords keypair.x keypair.y) (skWords keypair.s) uid (o.amount.toNat : F)
          (E.asNat o.ty : F))]
        ((o.data E).map (fun d => DelegatedSchnorr.commit E.gens d.1 d.2)) k (irand.map (fun q => DelegatedSchnorr.commit E.gens q.1 q.2))) := by
  unfold ConvProver.genAbarToBar at h
  split at h
  · cases h
  simp only [] at h
  obtain ⟨⟨pf, insp, beta, lambda, tr⟩, h1, h⟩ := Res.bind_eq_ok.mp h
  simp only [] at h
  obtain ⟨⟨inst, wit⟩, h2, h⟩ := Res.bind_eq_ok.mp h
  obtain ⟨⟨_, cs⟩, h3, h⟩ := Res.bind_eq_ok.mp h
  obtain ⟨proof, h4, h⟩ := Res.bind_eq_ok.mp h
  obtain rfl := Res.ok.inj h
  unfold proveSchnorr at h1
  rw [hk] at h1
  simp only [DelegatedSchnorr.prove, List.length_map, if_true] at h1
  obtain ⟨e, -⟩ := Prod.mk.inj (Res.ok.inj h1)
  exact ⟨_, e.symm, rfl⟩

/-- four runs of the generator for a record that is stored in a tree (C80), the conclusion of `C77_abar_to_bar_conserves_partial` for
them, and a note with other halves that is accepted too -/
example : ∃ (par : CS (ZMod Bls.r)) (root : ZMod Bls.r) (path : List (MTNode (ZMod Bls.r)))
    (note : Fin 2 → Fin 2 → AbarToBarNote convT secq256k1 ristretto (ZMod Bls.r) (Nat → ZMod Bls.r) (ZMod secq256k1.r)
      (List (ZMod secq256k1.r))),
    (∀ b l, convV.genAbarToBar Rescue.blsParams (convE (convH b l)) foldX foldM true secpOrderBytes par ((0 : Nat) : ZMod Bls.r) 8 path root
        (confRec 7) ⟨5, 7, 3⟩ () [(100, 1), (200, 2), (300, 3)] 98 confRand 99 = .ok (note b l) ∧
      (convE (convH b l)).verifyAbarToBar foldX par (note b l) root () = .ok ()) ∧
    ((∃ pk sk blind, ∃ j : Nat, [foldCom Rescue.blsParams][j]? = some (commit Rescue.blsParams pk blind (7 : Nat) (9 : Nat)) ∧
        (note 0 0).input = nullify Rescue.blsParams pk sk (j : ZMod Bls.r) (7 : Nat) (9 : Nat)) ∨
      (∃ pk s, SpendBreak Rescue.blsParams [foldCom Rescue.blsParams] pk s) ∨ (∃ a b, Collide Rescue.blsParams a b) ∨
      ∃ v v' t s s' c c', Relation (K := ZMod ristretto.r) barGens v v' t s s' c c') ∧
    (convE (convH 0 0)).verifyAbarToBar foldX par
      { note 0 0 with output := ⟨.conf (7 + 5 * 7 + ((2 ^ 32 : Nat) : ZMod ristretto.r) * 12345) (0 + 6 * 7 - 12345), .conf (9 + 11 * 7), 1⟩ }
      root () = .ok () := by
  obtain ⟨comm, hf⟩ := sampleFold_honest
  obtain ⟨icomm, hi⟩ := sampleInsp_honest
  have hp := goodBls
  generalize Rescue.blsParams = p at hp hf hi
  obtain ⟨t, q, ht, hroot, hpr, hlen, hgood, hcur, hcap⟩ := sampleTree p
  obtain ⟨vars, cs, -, -, hb, -, -, -, -⟩ := C76_abar_to_bar_complete p hp true secq256k1 ristretto secq_fold
    ristretto_insp secpOrderBytes secpOrder_ok.1 (sampleFold comm) hf (sampleInsp icomm) 7 9 hi (foldPayer q.nodes) q.root
    rfl rfl hgood hpr
  have gen := fun b l => C80_abar_to_bar_complete p hp true secq_fold (by decide) ristretto_insp ristretto_ge secpOrderBytes secpOrder_ok.1 convV
    (convE (convH b l)) foldX foldM cs (sampleFold comm) hf.consistent (sampleInsp icomm) hi.consistent (foldPayer q.nodes) _ _ vars cs hb
    (conv_completes _ cs _) ((0 : Nat) : ZMod Bls.r) 8 (foldPayer q.nodes).path rfl hgood q.root (confRec 7) rfl (confRec_opens _ _) ⟨5, 7, 3⟩
    ⟨(by decide +kernel : 5 < secq256k1.r), (by decide +kernel : 7 < secq256k1.r), (by decide +kernel : 3 < secq256k1.r),
      (by decide +kernel : 3 < ofLE secpOrderBytes)⟩ hpr () (foldM_complete _ _) [(100, 1), (200, 2), (300, 3)] rfl 98 confRand rfl 99
  choose note h1 h2 h3 h4 using gen
  obtain ⟨k, hk⟩ := conf_state p 7
  have hsch : ∀ b l, (note b l).schnorr = ⟨k, confRandomizers, confResponses 7 b⟩ := by
    intro b l
    obtain ⟨beta, e1, e2⟩ := genAbarToBar_schnorr p convV (convE (convH b l)) foldX foldM true secpOrderBytes cs _ _ _ _ (confRec 7) _ _ _ _
      confRand 99 (note b l) k hk (h1 b l)
    have : beta = ((b.val + 2 : Nat) : ZMod ristretto.r) := by
      rw [e2]
      unfold convE convH
      simp only []
      rw [if_pos (by simp [DelegatedSchnorr.point1, OpenRec.data, confRand])]
    subst this
    exact e1
  refine ⟨cs, q.root, (foldPayer q.nodes).path, note, fun b l => ⟨h1 b l, h2 b l⟩, ?_, ?_⟩
  · rcases C77_abar_to_bar_conserves_partial p hp true secq_fold ristretto_insp ristretto_ge secpOrderBytes secpOrder_ok.1 secpOrder_ok.2.1
      (convE (convH 0 0)) foldX cs (sampleFold comm) (sampleInsp icomm) (foldPayer q.nodes) hlen _ _ vars cs hb id (conv_knows _ cs _)
      (confRec 7).bar (note 0 0).input q.root k confRandomizers (confResponses 7) note (fun _ _ => ())
      (fun b l => ⟨by rw [h3, h3]; rfl, h4 b l, hsch b l⟩) convH h2 (RecOpening.ofRec (convE (convH 0 0)) (confRec 7)) (confRec_opens _ _)
      (fun b => ((b.val + 2 : Nat) : ZMod ristretto.r)) (fun _ l => ((l.val + 1 : Nat) : ZMod ristretto.r))
      (fun b l => by unfold convH; rw [if_pos (by simp [DelegatedSchnorr.point1, confRandomizers, confRand])]) (convH_ne.1 0)
      (fun b l => by
        unfold convH
        rw [if_neg (by simp [DelegatedSchnorr.point1, DelegatedSchnorr.point2, confRandomizers, confRand, confResponses, confData])])
      (fun _ => convH_ne.2) sampleCodec _ hcap [foldCom p] hcur t ht hroot with ⟨j, ch, g1, g2, -⟩ | ⟨b, l, h⟩ | ⟨b, l, h⟩ | h | h
    · exact .inl ⟨_, _, _, j, g1, g2⟩
    · exact .inr (.inl ⟨_, _, h⟩)
    · exact .inr (.inr (.inl ⟨_, _, h⟩))
    · exact .inr (.inr (.inr ⟨_, _, _, _, _, _, _, h⟩))
    · exact .inr (.inr (.inr ⟨_, _, _, _, _, _, _, h⟩))
  · have := C77_halves_unchecked (convE (convH 0 0)) foldX cs (note 0 0) q.root () (7 + 5 * 7) (0 + 6 * 7)
      (7 + 5 * 7 + ((2 ^ 32 : Nat) : ZMod ristretto.r) * 12345) (0 + 6 * 7 - 12345) (7 + 5 * 7) (0 + 6 * 7) 12345
      (by rw [h4]; simp [confRec, splitU64]) rfl rfl rfl rfl (h2 0 0)
    rw [h4] at this
    exact this

/-! ### Batches, malformed notes, keys -/

/-- a note whose proofs are empty -/
def badAr : AbarToArNote convT secq256k1 (ZMod Bls.r) (Nat → ZMod Bls.r) (ZMod secq256k1.r) (List (ZMod secq256k1.r)) :=
  ⟨5, ⟨.plain 1000000, .plain 9, 1⟩, 6, fun _ => 0, { coms := [], mul := [], schnorr := ⟨0, [], []⟩ }⟩

def badAbar : BarToAbarNote convT ristretto (ZMod Bls.r) (Nat → ZMod Bls.r) :=
  ⟨⟨(confRec 7).bar, 5, ⟨0, [], []⟩, fun _ => 0, ([], [])⟩, (0, [])⟩

def badBar : AbarToBarNote convT secq256k1 ristretto (ZMod Bls.r) (Nat → ZMod Bls.r) (ZMod secq256k1.r) (List (ZMod secq256k1.r)) :=
  ⟨5, (confRec 7).bar, ⟨0, [], []⟩, 6, fun _ => 0, { coms := [], mul := [], schnorr := ⟨0, [], []⟩ }⟩

/-- they make the verifiers panic (C79), and batches of them pass when a list is too short (C78) -/
example (H) (par : CS (ZMod Bls.r)) :
    (convE H).verifyAbarToAr foldX par badAr 6 () = .panic ∧ (convE H).verifyBarToAbar serBar par badAbar 1 = .panic ∧
    (convE H).verifyAbarToBar foldX par badBar 6 () = .panic ∧
    (convE H).batchAbarToAr foldX par [badAr, badAr] [6, 6] [] = true ∧
    (convE H).batchBarToAbar serBar par [badAbar, badAbar] [] = true ∧
    (convE H).batchAbarToBar foldX par [badBar, badBar] [6, 6] [] = true := by
  have hc := C77_record_commitments (convE H) (confRec 7).bar _ (confRec_opens H 7)
  refine ⟨?_, ?_, ?_, ?_, ?_, ?_⟩
  · exact (C79_abar_to_ar_panics_iff (convE H) foldX par badAr 6 ()).mpr ⟨⟨rfl, rfl⟩, .inl (by simp [badAr])⟩
  · exact (C79_bar_to_abar_panics_iff (convE H) serBar par badAbar 1).mpr ⟨rfl, ⟨_, hc⟩, by simp [SchnorrShape, badAbar]⟩
  · exact C79_abar_to_bar_panics (convE H) foldX par badBar () rfl _ hc (by simp [SchnorrShape, badBar])
  · exact (C78_abar_to_ar_ignores (convE H) foldX par [badAr, badAr] (by simp [badAr, Xfr.XfrAmount.isConfidential, Xfr.XfrAssetType.isConfidential])).1
  · exact C78_bar_to_abar_ignores (convE H) serBar par _
  · exact (C78_abar_to_bar_ignores (convE H) foldX par [badBar, badBar] (by
      simp [badBar, confRec, Xfr.XfrAmount.isConfidential, Xfr.XfrAssetType.isConfidential])).1

/-- a note for the record of key 1, signed by key 2, is accepted for key 2 (C81) -/
example : ∃ (par : CS (ZMod Bls.r)) (note : BarToAbarNote convT ristretto (ZMod Bls.r) (Nat → ZMod Bls.r)),
    note.body.input.publicKey = 1 ∧ note.signature.1 = 2 ∧ (convE (convH 0 0)).verifyBarToAbar serBar par note 2 = .ok () ∧
    (convE (convH 0 0)).batchBarToAbar serBar par [note, note] [2, 2] = true := by
  obtain ⟨icomm, hh⟩ := sampleInsp_honest
  have hp := goodBls
  generalize Rescue.blsParams = p at hp hh
  obtain ⟨vars, cs, input, hb, -, -, -⟩ := C75_bar_to_abar_complete p hp true ristretto ristretto_insp (sampleInsp icomm) 7 9 hh 8 samplePk
  obtain ⟨note, h1, h2, h3, h4, h5⟩ := C80_bar_to_abar_complete p hp true ristretto_insp ristretto_ge convV (convE (convH 0 0)) serBar
    (fun b => ⟨_, rfl⟩) cs _ _ hh.consistent vars cs hb (conv_completes _ cs _) (confRec 17179869187) rfl (confRec_opens _ _) 1 1
    (fun m => ⟨(1, m), rfl, by simp [convE]⟩) samplePk 8 ([1], []) confRand rfl 99
  have hbody : (convE (convH 0 0)).verifyBarToAbarBody cs note.body.input note.body.output note.body.schnorr note.body.proof = .ok () := by
    unfold ConvExt.verifyBarToAbar at h2
    obtain ⟨_, e, -⟩ := Res.bind_eq_ok.mp h2
    exact e
  have hv := C81_bar_to_abar_other_key (convE (convH 0 0)) serBar cs note.body _ rfl hbody 2 (2, note.body.memo.1 ++ note.body.memo.2) (by simp [convE])
  refine ⟨cs, ⟨note.body, (2, note.body.memo.1 ++ note.body.memo.2)⟩, by rw [h3]; rfl, rfl, hv, ?_⟩
  rw [C78_bar_to_abar_batch_partial (convE (convH 0 0)) serBar cs _ _ rfl]
  intro i hi
  have : i = 0 ∨ i = 1 := by simp at hi; omega
  rcases this with rfl | rfl <;> exact hv

end Verif.Anon
