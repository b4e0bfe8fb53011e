import Verif.Setup.Backed
import Verif.Setup.LiveExamples

/-!
The theorems of Backed.lean for the circuits of setup.
-/

namespace Verif.Setup

open Polynomial
open Verif.Poly Verif.Plonk Verif.Snark Verif.Anon Verif.SimFr
open Verif.Plonk.Spec (Sat)
open Verif.Snark.Spec (readOff)
open Verif.Anon.Spec
open Verif.StateComm (Collide)
open Verif.AnonCreds (Pairing)
open Spec

/-- with no keys of its own -/
def extUnit : ConvExt convT SimFr.ristretto Fr Unit (Snark.Proof Fr Fr) where
  gens := barGens
  decompress := some
  asNat := id
  oracle tr := (tr.length : ZMod SimFr.ristretto.r)
  plonk _ _ _ _ := false
  sigVerify k m s := decide (s = (k, m))

/-- a prover that commits to wires that are zero everywhere claims that a record with 300 units is converted: the runs that end in
acceptance are few, although the system can be satisfied -/
example (com : Fr) : ∃ cs, arToAbarCs Rescue.blsParams samplePk = some cs ∧
    FewAccepted 512 1000 (fun _ => 0) (fun pl s => ∃ d tr, verifyLate pairFr cs d tr pl s [300, 9, com] (pl.proof 1 s) = true) := by
  obtain ⟨⟨c1, e1, z1⟩, -⟩ := C93_setup_conversions true samplePk
  refine ⟨c1, e1, ?_⟩
  rw [arToAbarCs, Option.map_eq_some_iff] at e1
  obtain ⟨⟨vars, cs⟩, hb, rfl⟩ := e1
  have z1 : cs.gates.length = 512 := z1
  refine (caught pairFr pairFr_nonDegenerate (wf_arToAbar hb) (e := 9) (by norm_num) z1 1000 (by norm_num) (fun _ => 0) (by simp)
    [300, 9, com]).resolve_left fun hs => ?_
  have hz : readOff (blsRoot (2 ^ 9)) cs (fun _ => (0 : Fr[X])) = fun _ => 0 := by
    funext v
    simp [readOff]
  rw [hz] at hs
  obtain ⟨-, -, hpub⟩ := C93_ar_to_abar _ bls_rounds _ vars cs hb
  have hwf := wf_arToAbar hb
  have hl : 0 < cs.pubVars.length := by rw [← hwf.len, hpub]; simp
  have hg := hwf.pi 0 0 _ (by rw [hpub]; rfl) (List.getElem?_eq_getElem hl)
  have h0 := (hs 0 _ hg).1
  have hpi : Plonk.Spec.piAt cs.pubCons [300, 9, com] 0 = (300 : Fr) := by
    simp [Plonk.Spec.piAt, hpub]
  rw [hpi] at h0
  simp [Plonk.Spec.Gate.Holds, constGate] at h0
  have : (300 : Fr) = ((300 : Nat) : Fr) := by norm_num
  rw [this, ZMod.natCast_eq_zero_iff] at h0
  exact absurd h0 (by decide +kernel)

/-- any wires of degree at most 1000, a record of 300 units, any new commitment -/
example (w : Nat → Fr[X]) (hw : ∀ j < 5, (w j).natDegree ≤ 1000) (com : Fr) : ∃ cs, arToAbarCs Rescue.blsParams samplePk = some cs ∧
    ((∀ y : CommitIn Fr, y.eval Rescue.blsParams = com → (y.amount = ((300 : UInt64).toNat : Fr) ∧ y.ty = ((9 : Nat) : Fr)) ∨
        ∃ a b, Collides Rescue.blsParams a b) ∨
      FewAccepted 512 1000 w (fun pl s => ∃ d tr memo sig, (lateExt pairFr extUnit cs d tr pl s).verifyArToAbar (fun b => some (b.memo.1 ++ b.memo.2)) ()
        ⟨⟨⟨.plain 300, .plain 9, 1⟩, com, pl.proof 1 s, memo⟩, sig⟩ = .ok ())) := by
  obtain ⟨⟨c1, e1, -⟩, -⟩ := C93_setup_conversions true samplePk
  refine ⟨c1, e1, ?_⟩
  rw [arToAbarCs, Option.map_eq_some_iff] at e1
  obtain ⟨⟨vars, cs⟩, hb, rfl⟩ := e1
  rcases C95_ar_to_abar_backed_partial pairFr pairFr_nonDegenerate extUnit (fun b => some (b.memo.1 ++ b.memo.2)) _ vars cs hb 1000 (by norm_num) w hw
    ⟨.plain 300, .plain 9, 1⟩ com with ⟨a, ty, ha, hty, h⟩ | h
  · left
    cases ha
    cases hty
    intro y hy
    rcases h y hy with h | h
    · exact .inl h
    · exact .inr ⟨_, _, h⟩
  · exact .inr h

/-- a tree with one record; any nullifier, any amount, any folding proof -/
example (w : Nat → Fr[X]) (hw : ∀ j < 5, (w j).natDegree ≤ 32770) (nul : Fr) (a : UInt64)
    (folding : FoldInst SimFr.secq256k1 Fr (ZMod secq256k1.r) (List (ZMod secq256k1.r))) :
    ∃ cs root, abarToArCs Rescue.blsParams true SimFr.secq256k1 secpOrderBytes 20 = some cs ∧
    ((∃ pk sk blind, ∃ j : Nat, [xfrCom Rescue.blsParams][j]? = some (commit Rescue.blsParams pk blind (a.toNat : Fr) ((9 : Nat) : Fr)) ∧
        nul = nullify Rescue.blsParams pk sk (j : Fr) (a.toNat : Fr) ((9 : Nat) : Fr)) ∨
      (∃ pk s, SpendBreak Rescue.blsParams [xfrCom Rescue.blsParams] pk s) ∨
      FewAccepted 8192 32770 w (fun pl s => ∃ d tr, (lateExt pairFr extUnit cs d tr pl s).verifyAbarToAr foldX ()
        ⟨nul, ⟨.plain a, .plain 9, 1⟩, root, pl.proof 1 s, folding⟩ root () = .ok ())) := by
  obtain ⟨-, -, ⟨c1, e1, -⟩, -⟩ := C93_setup_conversions true samplePk
  obtain ⟨t, pr, ht, hroot, hlen, hpath, hcur, hcap⟩ := oneTree Rescue.blsParams (xfrCom Rescue.blsParams)
  refine ⟨c1, pr.root, e1, ?_⟩
  rw [abarToArCs, Option.map_eq_some_iff] at e1
  obtain ⟨⟨vars, cs⟩, hb, rfl⟩ := e1
  rcases C95_abar_to_ar_backed_partial pairFr pairFr_nonDegenerate extUnit foldX true _ _ (by simp [fakePayer]) _ _ vars cs hb 32770
    (by norm_num) w hw nul pr.root ⟨.plain a, .plain 9, 1⟩ folding () sampleCodec _ hcap _ hcur t ht hroot with
    ⟨a', ty, ch, ha, hty, -, ⟨j, h1, h2, -⟩ | h⟩ | h
  · cases ha
    cases hty
    exact .inl ⟨_, _, _, j, h1, h2⟩
  · exact .inr (.inl ⟨_, _, h⟩)
  · exact .inr (.inr h)

/-- a tree with one record, a transfer of one input to one output; wires that are one everywhere -/
example (body : XfrBody Fr Nat) (hn : body.inputs.length = 1) (hc : body.outputs.length = 1)
    (folding : FoldInst SimFr.secq256k1 Fr (ZMod secq256k1.r) (List (ZMod secq256k1.r))) : ∃ (vars : XfrVars FoldVars) (cs : CS Fr) (root : Fr),
    body.root = root → (∃ pk sk spent created, Honours Rescue.blsParams [xfrCom Rescue.blsParams] pk sk spent created ((9 : Nat) : Fr) body) ∨
      (∃ b : Merkle.Break Fr, b.Valid (treeHash Rescue.blsParams)) ∨
      FewAccepted cs.gates.length 32770 (fun _ => 1) (fun pl s => ∃ d tr,
        (lateXfrExt pairFr cs d tr pl s).verifyNote foldX () ⟨body, pl.proof 1 s, folding⟩ body.root () = .ok ()) := by
  obtain ⟨comm, hh⟩ := sampleFold_honest
  obtain ⟨vars, cs, hb⟩ := blank_circuit Rescue.blsParams goodBls comm hh 0 0
  obtain ⟨t, pr, ht, hroot, hlen, hpath, hcur, hcap⟩ := oneTree Rescue.blsParams (xfrCom Rescue.blsParams)
  refine ⟨vars, cs, pr.root, fun hr => ?_⟩
  have hd : ∀ s ∈ List.replicate (0 + 1) blank, s.path.length = 20 := by
    intro s hs
    obtain rfl := List.eq_of_mem_replicate hs
    simp [blank]
  obtain ⟨hz, -⟩ := C93_transfer_sizes _ bls_rounds true _ _ _ _ _ _ _ hd (by simp) (by simp) vars cs hb
  rcases C95_transfer_backed_partial pairFr pairFr_nonDegenerate foldX true _ _ _ hd (by simp) (by simp) _ _ _ _ vars cs hb 32770
    (by rw [hz]; split_ifs <;> norm_num) (fun _ => 1) (by simp) (by simp [readOff]) body (by simpa using hn) (by simpa using hc) folding ()
    sampleCodec _ hcap _ hcur t ht (by rw [hr]; exact hroot) with ⟨ch, -, -, h | ⟨s, -, h⟩⟩ | h
  · exact .inl ⟨_, _, _, _, h⟩
  · exact .inr (.inl ⟨_, h⟩)
  · exact .inr (.inr h)

theorem confRec_opens_unit (a : UInt64) : (RecOpening.ofRec extUnit (confRec a)).Opens extUnit (confRec a).bar := by
  refine ⟨⟨(Xfr.splitU64 a).1.toNat_lt, (Xfr.splitU64 a).2.toNat_lt, (by norm_num : 9 < 2 ^ 240)⟩, ⟨?_, ?_⟩, ?_⟩
  all_goals
    show some _ = some _
    simp [extUnit, barGens, RecOpening.ofRec, confRec, smul_eq_mul]

/-- the record of amount 7, four sets of wires, the responses of the honest delegated Schnorr prover -/
example (w : Fin 2 → Fin 2 → Nat → Fr[X]) (hw : ∀ b l, ∀ j < 5, (w b l j).natDegree ≤ 32770) (y : CommitIn Fr) (k : Fr) :
    ∃ cs, barToAbarCs Rescue.blsParams true SimFr.ristretto samplePk = some cs ∧
    ((y.amount = ((7 : Nat) : Fr) ∧ y.ty = ((9 : Nat) : Fr)) ∨ (∃ a b, Collides Rescue.blsParams a b) ∨
      (∃ a b, Collide Rescue.blsParams a b) ∨ (∃ v v' t s s' c c', Relation (K := ZMod ristretto.r) barGens v v' t s s' c c') ∨
      ∃ b l, FewAccepted 2048 32770 (w b l) (fun pl s => ∃ d tr,
        (lateExt pairFr { extUnit with oracle := convH b l } cs d tr pl s).verifyBarToAbarBody () (confRec 7).bar (y.eval Rescue.blsParams)
          ⟨k, confRandomizers, confResponses 7 b⟩ (pl.proof 1 s) = .ok ())) := by
  obtain ⟨-, ⟨c1, e1, -⟩, -⟩ := C93_setup_conversions true samplePk
  refine ⟨c1, e1, ?_⟩
  rw [barToAbarCs, Option.map_eq_some_iff] at e1
  obtain ⟨⟨vars, cs⟩, hb, rfl⟩ := e1
  rcases C95_bar_to_abar_backed_partial pairFr pairFr_nonDegenerate extUnit true _ _ vars cs hb 32770 (by norm_num) w hw
    (confRec 7).bar (y.eval Rescue.blsParams) k confRandomizers (confResponses 7) convH (RecOpening.ofRec extUnit (confRec 7))
    (confRec_opens_unit 7) (fun b => ((b.val + 2 : Nat) : ZMod ristretto.r)) (fun _ l => ((l.val + 1 : Nat) : ZMod ristretto.r))
    (fun b l => by unfold convH; rw [if_pos (by simp [DelegatedSchnorr.point1, confRandomizers, confRand])]) (convH_ne.1 0)
    (fun b l => by
      unfold convH
      rw [if_neg (by simp [DelegatedSchnorr.point1, DelegatedSchnorr.point2, confRandomizers, confRand, confResponses, confData])])
    (fun _ => convH_ne.2) y rfl with (h | ⟨b, l, h⟩ | ⟨b, l, h⟩ | h | h) | h
  · exact .inl h
  · exact .inr (.inl ⟨_, _, h⟩)
  · exact .inr (.inr (.inl ⟨_, _, h⟩))
  · exact .inr (.inr (.inr (.inl ⟨_, _, _, _, _, _, _, h⟩)))
  · exact .inr (.inr (.inr (.inl ⟨_, _, _, _, _, _, _, h⟩)))
  · exact .inr (.inr (.inr (.inr h)))

/-- a tree with one record, four sets of wires, a new record of amount 7 -/
example (w : Fin 2 → Fin 2 → Nat → Fr[X]) (hw : ∀ b l, ∀ j < 5, (w b l j).natDegree ≤ 32770) (nul k : Fr)
    (folding : Fin 2 → Fin 2 → FoldInst SimFr.secq256k1 Fr (ZMod secq256k1.r) (List (ZMod secq256k1.r))) :
    ∃ cs root, abarToBarCs Rescue.blsParams true SimFr.secq256k1 SimFr.ristretto secpOrderBytes 20 = some cs ∧
    ((∃ pk sk blind, ∃ j : Nat, [xfrCom Rescue.blsParams][j]? = some (commit Rescue.blsParams pk blind ((7 : Nat) : Fr) ((9 : Nat) : Fr)) ∧
        nul = nullify Rescue.blsParams pk sk (j : Fr) ((7 : Nat) : Fr) ((9 : Nat) : Fr)) ∨
      (∃ pk s, SpendBreak Rescue.blsParams [xfrCom Rescue.blsParams] pk s) ∨
      (∃ a b, Collide Rescue.blsParams a b) ∨ (∃ v v' t s s' c c', Relation (K := ZMod ristretto.r) barGens v v' t s s' c c') ∨
      ∃ b l, FewAccepted 8192 32770 (w b l) (fun pl s => ∃ d tr,
        (lateExt pairFr { extUnit with oracle := convH b l } cs d tr pl s).verifyAbarToBar foldX ()
          ⟨nul, (confRec 7).bar, ⟨k, confRandomizers, confResponses 7 b⟩, root, pl.proof 1 s, folding b l⟩ root () = .ok ())) := by
  obtain ⟨-, -, -, ⟨c1, e1, -⟩⟩ := C93_setup_conversions true samplePk
  obtain ⟨t, pr, ht, hroot, hlen, hpath, hcur, hcap⟩ := oneTree Rescue.blsParams (xfrCom Rescue.blsParams)
  refine ⟨c1, pr.root, e1, ?_⟩
  rw [abarToBarCs, Option.map_eq_some_iff] at e1
  obtain ⟨⟨vars, cs⟩, hb, rfl⟩ := e1
  rcases C95_abar_to_bar_backed_partial pairFr pairFr_nonDegenerate extUnit foldX true _ _ _ (by simp [fakePayer]) _ _ vars cs hb 32770
    (by norm_num) w hw (confRec 7).bar nul pr.root k confRandomizers (confResponses 7) folding (fun _ _ => ()) convH
    (RecOpening.ofRec extUnit (confRec 7))
    (confRec_opens_unit 7) (fun b => ((b.val + 2 : Nat) : ZMod ristretto.r)) (fun _ l => ((l.val + 1 : Nat) : ZMod ristretto.r))
    (fun b l => by unfold convH; rw [if_pos (by simp [DelegatedSchnorr.point1, confRandomizers, confRand])]) (convH_ne.1 0)
    (fun b l => by
      unfold convH
      rw [if_neg (by simp [DelegatedSchnorr.point1, DelegatedSchnorr.point2, confRandomizers, confRand, confResponses, confData])])
    (fun _ => convH_ne.2) sampleCodec _ hcap _ hcur t ht hroot with (⟨j, ch, h1, h2, -⟩ | ⟨b, l, h⟩ | ⟨b, l, h⟩ | h | h) | h
  · exact .inl ⟨_, _, _, j, h1, h2⟩
  · exact .inr (.inl ⟨_, _, h⟩)
  · exact .inr (.inr (.inl ⟨_, _, h⟩))
  · exact .inr (.inr (.inr (.inl ⟨_, _, _, _, _, _, _, h⟩)))
  · exact .inr (.inr (.inr (.inl ⟨_, _, _, _, _, _, _, h⟩)))
  · exact .inr (.inr (.inr (.inr h)))

end Verif.Setup
