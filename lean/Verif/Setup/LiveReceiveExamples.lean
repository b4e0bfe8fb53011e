import Verif.Setup.LiveReceive
import Verif.Setup.LiveExamples
import Verif.Anon.ReceiveExamples

/-!
C111 on a concrete pool: a deposit, a transfer and a payment out, all with the circuits and files of setup and the PLONK prover and verifier.
-/

namespace Verif.Setup

open Verif.Poly Verif.Plonk Verif.Snark Verif.Anon
open Verif.Anon.Spec

/-- seven units are put in for the key 3, five of them go to the key 5 for a fee of two, and the key 5 pays them out -/
example : ∃ (O O' O'' : Source Fr) (par par' par'' : Pars Fr Fr) (dep : ArToAbarNote convT Fr (Snark.Proof Fr Fr))
    (xfr : XfrNote SimFr.secq256k1 Fr (ZMod 101) (Snark.Proof Fr Fr) (ZMod SimFr.secq256k1.r) (List (ZMod SimFr.secq256k1.r)))
    (out : AbarToArNote convT SimFr.secq256k1 Fr (Snark.Proof Fr Fr) (ZMod SimFr.secq256k1.r) (List (ZMod SimFr.secq256k1.r)))
    (t t' : Merkle.Tree) (root root' : Fr) (x x' : Parcel Fr (ZMod 101)) (ins : List (OpenAbarAt Fr (Xfr.Fix 32) (ZMod 101)))
    (i' : OpenAbarAt Fr (Xfr.Fix 32) (ZMod 101)),
    (liveExt pairFr O extFr).verifyArToAbar (fun b => some (b.memo.1 ++ b.memo.2)) par dep = .ok () ∧
    Merkle.runTree sampleCodec (treeHash Rescue.blsParams) [.add (leafHash Rescue.blsParams (0 : Nat) dep.body.output), .commit] = some t ∧
    t.getRoot sampleCodec = some root ∧ anonX.memoRead dep.body.memo = some x.memo ∧ x.abar = dep.body.output ∧ x.uid = 0 ∧
    [x].mapM (anonX.receive Rescue.blsParams sampleCodec t (anonX.fromSecret 3)) = some ins ∧
    (liveXfrExt pairFr O').verifyNote foldX par' xfr root () = .ok () ∧
    Merkle.runTree sampleCodec (treeHash Rescue.blsParams) [.add (leafHash Rescue.blsParams (0 : Nat) dep.body.output), .commit,
      .add (leafHash Rescue.blsParams (1 : Nat) x'.abar), .commit] = some t' ∧
    t'.getRoot sampleCodec = some root' ∧ xfr.body.outputs[0]? = some x'.abar ∧ xfr.body.memos[0]? = some x'.memo ∧ x'.uid = 1 ∧
    anonX.receive Rescue.blsParams sampleCodec t' (anonX.fromSecret 5) x' = some i' ∧
    (liveExt pairFr O'' extFr).verifyAbarToAr foldX par'' out root' () = .ok () ∧ out.output = ⟨.plain 5, .plain (9 : Nat), 77⟩ := by
  have nine : anonX.asScalar (tyOf 9) = (extFr.asNat (9 : Nat) : Fr) := tyOf_scalar 9
  obtain ⟨o, m, o1, o2, o3, o4⟩ := someRecord 3 (by decide) 7 8
  obtain ⟨o', m', o1', o2', o3', o4'⟩ := someRecord 5 (by decide) 5 11
  obtain ⟨B, T, hB, hC, b1, b2, b3, hT⟩ := binsFr
  obtain ⟨⟨⟨common, specific⟩, fT⟩, ⟨fD, hfD⟩, -, ⟨fO, hfO⟩, -⟩ := C94_files envFr_honest le_rfl T hT B hC true (anonX.asScalar (tyOf 9)) samplePk
  obtain ⟨⟨c1, v1, z1⟩, -, ⟨c3, v3, z3⟩, -⟩ := C93_setup_conversions true samplePk
  -- the deposit
  obtain ⟨q, w, hq, -, online, cmW, bad, hb, h⟩ := C111_deposit anonX_laws pairFr_nonDegenerate envFr_honest le_rfl B hB samplePk fD hfD .err
    signFr extFr (fun b => some (b.memo.1 ++ b.memo.2)) (fun b => ⟨_, rfl⟩) plainRec ⟨rfl, rfl⟩ 1 (fun m => ⟨(1, m), rfl, by simp [extFr, plainRec]⟩)
    3 o o1 m o2 o3 (by rw [o4]; exact nine) [] someCoins someCoins_good
  have hs : q.cs.gates.length = 512 := by rw [proverLast_cs (by rw [← v1]; exact hq)]; exact z1
  obtain ⟨O, hO⟩ := lucky q (by omega) (by omega) (start arToAbarLabel) online cmW bad (fun b => le_trans (hb b) (by norm_num))
  obtain ⟨dep, -, d2, x, d3, d4, d5, d6⟩ := h O hO
  -- the transfer
  obtain ⟨t, root, ins, t1, t2, t3, pre, q', w', -, hq', -, online', cmW', bad', hb', hsz, h'⟩ := C111_transfer (E' := envFr) anonX_laws
    pairFr_nonDegenerate envFr_honest le_rfl T b1 b2 b3 true (tyOf 9) (fun _ _ _ => none) common specific fT foldX foldM sampleCodec
    [.add (leafHash Rescue.blsParams (0 : Nat) dep.body.output), .commit] (by show 1 ≤ 3 ^ 20; norm_num) [dep.body.output] rfl
    3 (by norm_num) xfr_key [x] [o] (.cons d6 .nil) [⟨o', none⟩] 2 (by simp) (by simp) (by simp) (by simp) (by simp [o2'])
    (by
      intro ty hty
      have : ty = tyOf 9 := by
        obtain ⟨q, hq, rfl⟩ := hty
        simp only [List.map_cons, List.map_nil, List.cons_append, List.nil_append, List.mem_cons, List.not_mem_nil, or_false] at hq
        rcases hq with rfl | rfl
        · exact o4
        · exact o4'
      subst this
      simp only [List.map_cons, List.map_nil, OpenAbarAt.held, o3, o4, o3', o4']
      rfl)
    ⟨o, by simp, o4⟩ (by
      intro a ha hne
      obtain rfl := List.mem_singleton.mp ha
      exact absurd o4 hne) (by
      intro a ha
      obtain rfl := List.mem_singleton.mp ha
      exact ⟨o, by simp, by rw [o4, o4']⟩) (by
      intro a ha b hb _
      obtain rfl := List.mem_singleton.mp ha
      obtain rfl := List.mem_singleton.mp hb
      rfl) () (foldM_complete _ _) [(100, 1), (200, 2), (300, 3)] rfl 99 someCoins someCoins_good
  obtain ⟨cs, vars, e1, -, -, e, he, ze⟩ := transfer_circuit true (anonX.asScalar (tyOf 9)) 1 1 le_rfl (by norm_num) le_rfl (by norm_num)
  have hs' : q'.cs.gates.length = 2 ^ e := by rw [proverFirst_cs (by rw [← e1]; exact hq')]; exact ze
  have h15 : 2 ^ e ≤ 2 ^ 15 := Nat.pow_le_pow_right (by norm_num) he
  have h0 : 0 < 2 ^ e := by positivity
  obtain ⟨O', hO'⟩ := lucky q' (by omega) (by omega) (startXfr (xfrTranscript 1 1)) online' cmW' bad' (fun b => le_trans (hb' b) (by omega))
  obtain ⟨xfr, -, n2, -, tl, n4⟩ := h' O' hO'
  obtain ⟨x', s1, s2, s3, s4⟩ := n4 0 ⟨o', none⟩ 5 rfl o1'
  have hone : xfr.body.outputs = [x'.abar] := by
    obtain ⟨y, hy⟩ := List.length_eq_one_iff.mp tl
    rw [hy] at s2 ⊢
    exact congrArg (fun z => [z]) (Option.some.inj s2)
  rw [hone] at s4
  -- the payment out
  obtain ⟨t', root', i', p1, p2, p3, q'', w'', hq'', -, online'', cmW'', bad'', hb'', h''⟩ := C111_pay_out (S := convT) (Q := SimFr.ristretto)
    anonX_laws pairFr_nonDegenerate envFr_honest le_rfl B hB true fO hfO .err signFr extFr foldX foldM sampleCodec
    [.add (leafHash Rescue.blsParams (0 : Nat) dep.body.output), .commit, .add (leafHash Rescue.blsParams (1 : Nat) x'.abar), .commit]
    (by show 2 ≤ 3 ^ 20; norm_num) ([dep.body.output] ++ [x'.abar]) rfl 5 (by decide +kernel) x' o' s4 (9 : Nat) (by rw [o4']; exact nine) 77 ()
    (foldM_complete _ _) [(100, 1), (200, 2), (300, 3)] rfl 98 someCoins someCoins_good
  have hs'' : q''.cs.gates.length = 8192 := by rw [proverLast_cs (by rw [← v3]; exact hq'')]; exact z3
  obtain ⟨O'', hO''⟩ := lucky q'' (by omega) (by omega) (start abarToArLabel) online'' cmW'' bad'' (fun b => le_trans (hb'' b) (by norm_num))
  obtain ⟨out, -, r2, r3⟩ := h'' O'' hO''
  exact ⟨O, O', O'', (q, w), (q', w'), (q'', w''), dep, xfr, out, t, t', root, root', x, x', ins, i', d2, t1, t2, d3, d4, d5, t3, n2, p1, p2, s2, s3,
    s1, p3, r2, by rw [r3, o3']⟩

/-- more than 2^33 units of a confidential record are put in for the key 3, which pays them out as a confidential record -/
example : ∃ (O O' : Source Fr) (par par' : Pars Fr Fr) (dep : BarToAbarNote convT SimFr.ristretto Fr (Snark.Proof Fr Fr))
    (out : AbarToBarNote convT SimFr.secq256k1 SimFr.ristretto Fr (Snark.Proof Fr Fr) (ZMod SimFr.secq256k1.r) (List (ZMod SimFr.secq256k1.r)))
    (t : Merkle.Tree) (root : Fr) (x : Parcel Fr (ZMod 101)) (i : OpenAbarAt Fr (Xfr.Fix 32) (ZMod 101)),
    (liveExt pairFr O extFr).verifyBarToAbar (fun b => some (b.memo.1 ++ b.memo.2)) par dep 1 = .ok () ∧
    Merkle.runTree sampleCodec (treeHash Rescue.blsParams) [.add (leafHash Rescue.blsParams (0 : Nat) dep.body.output), .commit] = some t ∧
    t.getRoot sampleCodec = some root ∧ anonX.memoRead dep.body.memo = some x.memo ∧ x.abar = dep.body.output ∧ x.uid = 0 ∧
    anonX.receive Rescue.blsParams sampleCodec t (anonX.fromSecret 3) x = some i ∧
    (liveExt pairFr O' extFr).verifyAbarToBar foldX par' out root () = .ok () ∧ out.output = (confRec 17179869187).bar := by
  have nine : anonX.asScalar (tyOf 9) = (extFr.asNat (9 : Nat) : Fr) := tyOf_scalar 9
  obtain ⟨o, m, o1, o2, o3, o4⟩ := someRecord 3 (by decide) 17179869187 8
  obtain ⟨B, T, hB, hC, -, -, -, hT⟩ := binsFr
  obtain ⟨-, -, ⟨fD, hfD⟩, -, ⟨fO, hfO⟩⟩ := C94_files envFr_honest le_rfl T hT B hC true (anonX.asScalar (tyOf 9)) samplePk
  obtain ⟨-, ⟨c2, v2, z2⟩, -, ⟨c4, v4, z4⟩⟩ := C93_setup_conversions true samplePk
  obtain ⟨q, w, hq, -, online, cmW, bad, hb, h⟩ := C111_deposit_confidential anonX_laws pairFr_nonDegenerate envFr_honest le_rfl B hB true samplePk fD
    hfD .err signFr extFr (fun b => some (b.memo.1 ++ b.memo.2)) (fun b => ⟨_, rfl⟩) (confRec 17179869187) rfl (confRec_opens_fr _) 1 1
    (fun m => ⟨(1, m), rfl, by simp [extFr]⟩) confRand rfl 99 3 o o1 m o2 o3 (by rw [o4]; exact nine) [] someCoins someCoins_good
  have hs : q.cs.gates.length = 2048 := by rw [proverFirst_cs (by rw [← v2]; exact hq)]; exact z2
  obtain ⟨O, hO⟩ := lucky q (by omega) (by omega) (start barToAbarLabel) online cmW bad (fun b => le_trans (hb b) (by norm_num))
  obtain ⟨dep, -, d2, x, d3, d4, d5, d6⟩ := h O hO
  obtain ⟨t, root, i, p1, p2, p3, q', w', hq', -, online', cmW', bad', hb', h'⟩ := C111_pay_out_confidential anonX_laws pairFr_nonDegenerate
    envFr_honest le_rfl B hB true fO hfO .err signFr extFr foldX foldM sampleCodec
    [.add (leafHash Rescue.blsParams (0 : Nat) dep.body.output), .commit] (by show 1 ≤ 3 ^ 20; norm_num) [dep.body.output] rfl 3 xfr_key x o d6
    (confRec 17179869187) rfl (confRec_opens_fr _) o3 (by rw [o4]; exact nine) () (foldM_complete _ _) [(100, 1), (200, 2), (300, 3)] rfl 98
    confRand rfl 99 someCoins someCoins_good
  have hs' : q'.cs.gates.length = 8192 := by rw [proverLast_cs (by rw [← v4]; exact hq')]; exact z4
  obtain ⟨O', hO'⟩ := lucky q' (by omega) (by omega) (start abarToBarLabel) online' cmW' bad' (fun b => le_trans (hb' b) (by norm_num))
  obtain ⟨out, -, r2, r3⟩ := h' O' hO'
  exact ⟨O, O', (q, w), (q', w'), dep, out, t, root, x, i, d2, p1, p2, d3, d4, d5, p3, r2, r3⟩

end Verif.Setup
