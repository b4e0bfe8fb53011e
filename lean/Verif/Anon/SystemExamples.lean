import Verif.Anon.System
import Verif.Anon.PoolConfExamples

/-!
The hypotheses of C105 are met over the fields, the hash and the parameters of the code.  The ledger begins with a hidden record of
seven units and two public records of two and three units, all of one type.  A transfer joins the public records; the hidden and the
joined record go into the pool; a hidden record of five units comes out of it.
-/

namespace Verif.Anon

open Verif.Plonk Verif.Plonk.Spec Verif.Xfr Verif.Xfr.Spec Verif.SimFr Verif.SimFr.Spec Verif.StateComm Verif.Anon.Spec

instance : ScalarRepr (ZMod ristretto.r) := zmodRepr ristretto.r (by decide +kernel)

/-- transfers over the group of `convE`, where every commitment can be opened to zero; there are no mixing proofs -/
@[reducible] noncomputable def sysE : Ext convT where
  decompress := some
  compress := id
  identityC := 0
  B := 1
  Bb := 7
  asScalar := fun n => ((n % 2 ^ 240 : Nat) : ZMod ristretto.r)
  proveRanges := fun _ _ => none
  batchRanges := fun l => l.all (fun _ => true)
  proveAsset := fun _ _ _ => none
  batchAsset := fun l => l.all (fun _ => true)
  proveMix := fun _ _ => none
  batchMix := fun l => l.all (fun _ => false)
  provePeg := fun _ _ _ _ _ => ()
  batchPeg := fun l => l.all (fun _ => true)
  acVerify := fun _ _ _ _ => true
  ser := fun b => some [UInt8.ofNat b.inputs.length, UInt8.ofNat b.outputs.length]
  pkBytes := fun n => List.replicate n 0
  sigVerify := fun pk m s => s == (pk, m)
  kpPub := fun _ => 1
  kpSign := fun _ m => some (1, m)

theorem sysE_batching : Batching sysE where
  ranges := fun l => by simp
  asset := fun l => by simp
  mix := fun l => by simp
  peg := fun l => by simp

noncomputable def sysX : Extractors convT where
  range := fun _ coms => coms.map fun c => (0, c * (7 : ZMod ristretto.r)⁻¹)
  type := fun _ coms => (0, coms.map fun c => c * (7 : ZMod ristretto.r)⁻¹)
  mix := fun _ _ _ => { ins := [], outs := [], allocs := [], chal := fun _ => 0 }

theorem seven_ne : (7 : ZMod ristretto.r) ≠ 0 := by decide +kernel

theorem sysX_sound : sysX.Sound sysE where
  range := by
    intro rp coms h
    show List.Forall₂ _ coms (coms.map _)
    rw [List.forall₂_map_right_iff, List.forall₂_same]
    intro c hc
    refine ⟨by norm_num, ?_⟩
    show some c = some (((0 : Nat) : ZMod ristretto.r) • (1 : ZMod ristretto.r) + (c * 7⁻¹) • (7 : ZMod ristretto.r))
    rw [smul_eq_mul, smul_eq_mul, inv_mul_cancel_right₀ seven_ne]
    simp
  type := by
    intro coms pf h
    show List.Forall₂ _ coms (coms.map _)
    rw [List.forall₂_map_right_iff, List.forall₂_same]
    intro c hc
    show c = (0 : ZMod ristretto.r) • (1 : ZMod ristretto.r) + (c * 7⁻¹) • (7 : ZMod ristretto.r)
    rw [smul_eq_mul, smul_eq_mul, inv_mul_cancel_right₀ seven_ne]
    simp
  mix := by
    intro ins outs s h
    simp at h

theorem sys_joined (V : ConfV) (hV : V.conv = convE (convH 0 0)) : Joined sysE V (RingEquiv.refl (ZMod ristretto.r)) where
  smul := fun _ _ => rfl
  B := by rw [hV]; rfl
  Bb := by rw [hV]; rfl
  decompress := by rw [hV]; rfl
  asScalar := fun t => by rw [hV]; rfl
  asNat := fun t => by rw [hV]; exact Nat.mod_lt _ (by norm_num)

/-- a public record of type 9 -/
def sysPub (a : UInt64) : BlindAssetRecord convT := ⟨.plain a, .plain 9, 1⟩

noncomputable def sysPubH (a : UInt64) : Holding convT := holdingOf sysE (sysPub a) (0, 0) (0, 0)

/-- two public records are joined -/
def sysNote : Xfr.XfrNote convT :=
  { body :=
      { inputs := [sysPub 2, sysPub 3], outputs := [sysPub 5], amountProof := .noProof, tracingProofs := []
        inputsIdentityProofs := [[], []], outputsIdentityProofs := [[]], tracingMemos := [[], [], []], ownersMemos := [none] }
    signatures := [(1, [2, 1]), (1, [2, 1])] }

def sysPolicies : Policies convT :=
  { valid := true, inputsPolicies := [[], []], inputsSigComs := [none, none], outputsPolicies := [[]], outputsSigComs := [none] }

theorem sysNote_accepted : sysE.batchVerifyNotes [sysNote] [sysPolicies] = some () := by
  have hrec : sysE.batchAssetRecords [sysNote.body] = some () := by
    rw [batchAssetRecords_iff sysE sysE_batching]
    intro b hb
    rw [List.mem_singleton.mp hb]
    show verifyPlainAssetMix sysNote.body.inputs sysNote.body.outputs = some ()
    decide
  unfold Ext.batchVerifyNotes
  rw [if_pos (by rfl)]
  unfold Ext.batchVerifyBodies
  simp only [List.map_cons, List.map_nil, hrec, Option.bind_eq_bind, Option.bind_some]
  rfl

theorem sysPub_holds (a : UInt64) : Holds sysE (sysPub a) (sysPubH a) := ⟨a.toNat_lt, ⟨rfl, rfl⟩, rfl, rfl⟩

/-- what the hidden record holds -/
noncomputable def sysHid : Holding convT := ⟨7, 5 + 2 ^ 32 * 6, ((9 : Nat) : ZMod ristretto.r), 11⟩

theorem sysHid_holds : Holds sysE (confRec 7).bar sysHid := by
  refine ⟨by norm_num [sysHid], ⟨_, _, rfl, rfl, ?_⟩, ?_⟩
  · show (((splitU64 7).1.toNat : ZMod ristretto.r) + 5 * 7) + (2 ^ 32 : ZMod ristretto.r) • (((splitU64 7).2.toNat : ZMod ristretto.r) + 6 * 7) =
      ((7 : Nat) : ZMod ristretto.r) • (1 : ZMod ristretto.r) + (5 + 2 ^ 32 * 6 : ZMod ristretto.r) • (7 : ZMod ristretto.r)
    have e1 : (splitU64 7).1.toNat = 7 := by decide
    have e2 : (splitU64 7).2.toNat = 0 := by decide
    rw [e1, e2]
    simp only [smul_eq_mul]
    push_cast
    ring
  · show some (9 + 11 * 7 : ZMod ristretto.r) = some (((9 : Nat) : ZMod ristretto.r) • (1 : ZMod ristretto.r) + (11 : ZMod ristretto.r) • (7 : ZMod ristretto.r))
    simp only [smul_eq_mul]
    norm_num

/-- The hypotheses of C105 are met: of twelve units five are in an ordinary record at the end. -/
example : ∃ (V : ConfV) (W : ConfW) (start l cross : List (BlindAssetRecord convT × Holding convT))
    (ss : List (List (Holding convT) × Xfr.XfrBody convT)) (txs : List ConfT) (s : Pool (ZMod Bls.r)),
    ConfOk Rescue.blsParams V W ∧ Joined sysE V (RingEquiv.refl (ZMod ristretto.r)) ∧ 2 ^ 192 ≤ ScalarRepr.order convT.F ∧
    (∀ g, sysE.decompress (sysE.compress g) = some g) ∧ Batching sysE ∧ sysX.Sound sysE ∧
    System Rescue.blsParams sysE sysX V W (RingEquiv.refl (ZMod ristretto.r)) start l ss txs cross s ∧
    (∀ e ∈ start, Holds sysE e.1 e.2) ∧ (∀ s ∈ ss, MixShape s.2) ∧ ConfRun Rescue.blsParams V W txs ∧
    held ((9 : Nat) : ZMod ristretto.r) (start.map Prod.snd) = 12 ∧ held ((9 : Nat) : ZMod ristretto.r) (l.map Prod.snd) = 5 ∧
    ss.length = 1 ∧ txs.length = 3 ∧ cross.length = 3 ∧ s.stored.length = 2 ∧ s.nuls.length = 1 := by
  obtain ⟨V, W, n0, n1, n2, root, com0, com1, hV, hW, hO, hall, s1, s2, s3, e0, e1, e2⟩ := confPool_run
  have hg : given sysE W (RingEquiv.refl (ZMod ristretto.r)) (.withdraw 2 n2 root () : ConfT) =
      [((confRec 5).bar, crossing sysE (RingEquiv.refl (ZMod ristretto.r)) (confRec 5).bar (confWhole 5))] := by
    simp only [given, hW, e2, confBook_eq.2]
  have h1 := System.transfer (K := ZMod 101) (ins := [(sysPub 2, sysPubH 2), (sysPub 3, sysPubH 3)]) (rest := [((confRec 7).bar, sysHid)])
    (n := sysNote) (System.nil (p := Rescue.blsParams) (E := sysE) (X := sysX) (V := V) (W := W) (φ := RingEquiv.refl (ZMod ristretto.r))
      (start := [(sysPub 2, sysPubH 2), (sysPub 3, sysPubH 3), ((confRec 7).bar, sysHid)]))
    sysNote_accepted (by simp) (by simp [sysNote]) (by simp [sysNote]) rfl (List.Perm.refl _)
  have h2 := System.pool (ins := [((confRec 7).bar, sysHid)]) (rest := [(sysPub 5, sysPubH 5)]) h1 s1
    (by simp [taken, e0]) (List.perm_append_comm)
  have h3 := System.pool (ins := [(sysPub 5, sysPubH 5)]) (rest := []) h2 s2 (by simp [taken, e1, sysPub]) (List.Perm.refl _)
  have h4 := System.pool (ins := []) (rest := []) h3 s3 rfl (List.Perm.refl _)
  refine ⟨V, W, _, _, _, _, _, _, hO, sys_joined V hV, ?_, fun _ => rfl, sysE_batching, sysX_sound, h4, ?_, ?_, hall, ?_, ?_, rfl,
    rfl, ?_, rfl, rfl⟩
  · show 2 ^ 192 ≤ ristretto.r
    exact le_trans (by norm_num) ristretto_ge
  · intro e he
    simp only [List.mem_cons, List.not_mem_nil, or_false] at he
    rcases he with rfl | rfl | rfl
    · exact sysPub_holds 2
    · exact sysPub_holds 3
    · exact sysHid_holds
  · intro s hs p hp
    simp only [List.nil_append, List.mem_singleton] at hs
    rw [hs] at hp
    cases hp
  · have h9 : (sysPubH 2).ty = ((9 : Nat) : ZMod ristretto.r) ∧ (sysPubH 3).ty = ((9 : Nat) : ZMod ristretto.r) := ⟨rfl, rfl⟩
    simp only [held, List.map_cons, List.map_nil, List.sum_cons, List.sum_nil]
    rw [if_pos h9.1, if_pos h9.2, if_pos (show sysHid.ty = ((9 : Nat) : ZMod ristretto.r) from rfl)]
    rfl
  · rw [hg]
    simp only [held, List.map_cons, List.map_nil, List.sum_cons, List.sum_nil, List.append_nil]
    rw [if_pos (by rfl)]
    exact (confWhole_units 5).1
  · rw [hg]
    rfl

end Verif.Anon
