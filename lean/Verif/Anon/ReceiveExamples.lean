import Verif.Anon.Receive
import Verif.Anon.XfrNoteExamples

/-!
C108 on a concrete pool: a deposit, a transfer and a payment out.
-/

namespace Verif.Anon

open Verif.Plonk Verif.Plonk.Spec Verif.Xfr Verif.SimFr Verif.SimFr.Spec Verif.StateComm Verif.Anon.Spec

/-- a record of any amount of the asset with scalar 9, made by the builder for the key of `sk` -/
theorem someRecord (sk : Nat) (hsk : (anonX.fromSecret sk).pub ≠ 0) (a : UInt64) (blind : ZMod Bls.r) :
    ∃ o m, MadeFor anonX sk o ∧ o.memo = some m ∧ o.amount = a ∧ o.ty = tyOf 9 := by
  obtain ⟨c, hc⟩ : ∃ c, anonX.encK 12 (anonX.fromSecret sk).pub
      (anonX.memoMsg ⟨a, tyOf 9, blind, (anonX.fromSecret sk).pub, none⟩) = some c := by
    unfold MemoPrims.encK
    exact ⟨_, rfl⟩
  refine ⟨⟨a, tyOf 9, blind, (anonX.fromSecret sk).pub, some ⟨c.1, c.2⟩⟩, ⟨c.1, c.2⟩, ⟨a, tyOf 9, 0, blind, 12, ?_⟩, rfl, rfl, rfl⟩
  unfold AnonExt.finalize
  simp only [Option.isSome_none, Bool.false_eq_true, if_false, hc, Option.bind_eq_bind, Option.bind_some, Option.pure_def]
  unfold buildAbar
  rw [if_neg hsk]
  rfl

theorem nine (H) : anonX.asScalar (tyOf 9) = ((convE H).asNat (9 : Nat) : ZMod Bls.r) := tyOf_scalar 9

/-- seven units are put in for the key 3, five of them go to the key 5 for a fee of two, and the key 5 pays them out; the two owners have
their secret keys and what is published -/
example (H) : ∃ (parD parT parO : CS (ZMod Bls.r)) (dep : ArToAbarNote convT (ZMod Bls.r) (Nat → ZMod Bls.r))
    (xfr : XfrNote secq256k1 (ZMod Bls.r) (ZMod 101) (Nat → ZMod Bls.r) (ZMod secq256k1.r) (List (ZMod secq256k1.r)))
    (out : AbarToArNote convT secq256k1 (ZMod Bls.r) (Nat → ZMod Bls.r) (ZMod secq256k1.r) (List (ZMod secq256k1.r)))
    (t t' : Merkle.Tree) (root root' : ZMod Bls.r) (x x' : Parcel (ZMod Bls.r) (ZMod 101)) (i i' : OpenAbarAt (ZMod Bls.r) (Fix 32) (ZMod 101)),
    dep.body.input = plainRec.bar ∧ (convE H).verifyArToAbar serAr parD dep = .ok () ∧
    Merkle.runTree sampleCodec (treeHash Rescue.blsParams) [.add (leafHash Rescue.blsParams (0 : Nat) dep.body.output), .commit] = some t ∧
    t.getRoot sampleCodec = some root ∧ anonX.memoRead dep.body.memo = some x.memo ∧ x.abar = dep.body.output ∧ x.uid = 0 ∧
    anonX.receive Rescue.blsParams sampleCodec t (anonX.fromSecret 3) x = some i ∧ xfrFixed.verifyNote foldX parT xfr root () = .ok () ∧
    Merkle.runTree sampleCodec (treeHash Rescue.blsParams) [.add (leafHash Rescue.blsParams (0 : Nat) dep.body.output), .commit,
      .add (leafHash Rescue.blsParams (1 : Nat) x'.abar), .commit] = some t' ∧
    t'.getRoot sampleCodec = some root' ∧ xfr.body.outputs[0]? = some x'.abar ∧ xfr.body.memos[0]? = some x'.memo ∧ x'.uid = 1 ∧
    anonX.receive Rescue.blsParams sampleCodec t' (anonX.fromSecret 5) x' = some i' ∧ (convE H).verifyAbarToAr foldX parO out root' () = .ok () ∧
    out.output = ⟨.plain 5, .plain (9 : Nat), 77⟩ := by
  obtain ⟨comm, hh⟩ := sampleFold_honest
  have hp := goodBls
  generalize Rescue.blsParams = p at hp hh
  obtain ⟨o, m, o1, o2, o3, o4⟩ := someRecord 3 (by decide) 7 8
  obtain ⟨o', m', o1', o2', o3', o4'⟩ := someRecord 5 (by decide) 5 11
  -- the deposit
  obtain ⟨varsD, csD, hbD, -, -⟩ := C73_ar_to_abar_complete p hp samplePayee
  obtain ⟨dep, d1, d2, x, d3, d4, d5, d6⟩ := C108_deposit anonX_laws hp convV (convE H) serAr (fun b => ⟨_, rfl⟩) csD samplePayee varsD csD hbD
    (conv_completes H csD _) plainRec ⟨rfl, rfl⟩ 1 (fun m => ⟨(1, m), rfl, by simp [convE, plainRec]⟩) 3 o o1 m o2 o3
    (by rw [o4]; exact nine H) []
  have d7 : dep.body.input = plainRec.bar := by
    unfold ConvProver.genArToAbar ConvProver.genArToAbarBody at d1
    obtain ⟨b, e1, d1⟩ := Res.bind_eq_ok.mp d1
    obtain ⟨_, -, d1⟩ := Res.bind_eq_ok.mp d1
    obtain ⟨_, -, d1⟩ := Res.bind_eq_ok.mp d1
    obtain ⟨_, -, e1⟩ := Res.bind_eq_ok.mp e1
    obtain ⟨_, -, e1⟩ := Res.bind_eq_ok.mp e1
    rw [← Res.ok.inj d1, ← Res.ok.inj e1]
  -- the transfer
  obtain ⟨varsT, csT, hbT⟩ := blank_circuit p hp comm hh 0 0
  rw [show ((9 : Nat) : ZMod Bls.r) = anonX.asScalar (tyOf 9) from (tyOf_scalar 9).symm] at hbT
  obtain ⟨t, root, ins, pre, xfr, t1, t2, t3, -, -, t4, -, tl, t5⟩ := C108_transfer anonX_laws hp (le_of_lt (lt_trans (by norm_num) order_big)) true
    secq_fold (by decide) secpOrderBytes secpOrder_ok.1 xfrV xfrFixed foldX foldM csT (sampleFold comm) hh.consistent _ _ _ _ _ (tyOf 9) varsT csT hbT
    (xfr_completes csT) sampleCodec [.add (leafHash p (0 : Nat) dep.body.output), .commit] (by show 1 ≤ 3 ^ 20; norm_num) [dep.body.output] rfl
    3 (by norm_num) xfr_key [x] [o] (.cons d6 .nil) [⟨o', none⟩] 2 (by simp) (by simp) (by simp [o2'])
    (by
      intro ty hty
      have : ty = tyOf 9 := by
        obtain ⟨q, hq, rfl⟩ := hty
        simp only [List.map_cons, List.map_nil, List.cons_append, List.nil_append, List.mem_cons, List.not_mem_nil, or_false] at hq
        rcases hq with rfl | rfl
        · exact o4
        · exact o4'
      subst this
      simp only [List.map_cons, List.map_nil, OpenAbarAt.held, o3, o4, o3', o4']
      rfl)
    ⟨o, by simp, o4⟩ (by
      intro a ha hne
      obtain rfl := List.mem_singleton.mp ha
      exact absurd o4 hne) (by
      intro a ha
      obtain rfl := List.mem_singleton.mp ha
      exact ⟨o, by simp, by rw [o4, o4']⟩) (by
      intro a ha b hb _
      obtain rfl := List.mem_singleton.mp ha
      obtain rfl := List.mem_singleton.mp hb
      rfl) (by simp [blank]) (by simp) () (foldM_complete _ _) [(100, 1), (200, 2), (300, 3)] rfl 99
  obtain ⟨x', s1, s2, s3, s4⟩ := t5 0 ⟨o', none⟩ 5 rfl o1'
  have hone : xfr.body.outputs = [x'.abar] := by
    obtain ⟨y, hy⟩ := List.length_eq_one_iff.mp tl
    rw [hy] at s2 ⊢
    exact congrArg (fun z => [z]) (Option.some.inj s2)
  -- the payment out
  obtain ⟨-, q, -, -, hpr, hlen, hgood, -, -⟩ := sampleTree p
  obtain ⟨varsO, csO, -, hbO, -, -, -⟩ := C74_abar_to_ar_complete p hp true secq256k1 secq_fold secpOrderBytes
    secpOrder_ok.1 (sampleFold comm) hh (foldPayer q.nodes) q.root hgood hpr
  rw [hone] at s4
  obtain ⟨t', root', i', out, p1, p2, p3, -, p4, p5⟩ := C108_pay_out anonX_laws hp true secq_fold (by decide) secpOrderBytes secpOrder_ok.1 convV
    (convE H) foldX foldM csO (sampleFold comm) hh.consistent (foldPayer q.nodes) hlen _ _ varsO csO hbO (conv_completes H csO _) sampleCodec
    [.add (leafHash p (0 : Nat) dep.body.output), .commit, .add (leafHash p (1 : Nat) x'.abar), .commit] (by show 2 ≤ 3 ^ 20; norm_num)
    ([dep.body.output] ++ [x'.abar]) rfl 5 (by decide +kernel) x' o' s4 (9 : Nat) (by rw [o4']; exact nine H) 77 () (foldM_complete _ _)
    [(100, 1), (200, 2), (300, 3)] rfl 98
  obtain ⟨i, e1, -⟩ : ∃ i, anonX.receive p sampleCodec t (anonX.fromSecret 3) x = some i ∧ True := by
    rw [List.mapM_cons] at t3
    obtain ⟨i, e1, -⟩ := Option.bind_eq_some_iff.mp t3
    exact ⟨i, e1, trivial⟩
  exact ⟨csD, csT, csO, dep, xfr, out, t, t', root, root', x, x', i, i', d7, d2, t1, t2, d3, d4, d5, e1, t4, p1, p2, s2, s3, s1, p3, p4,
    by rw [p5, o3']⟩

/-- more than 2^33 units of a confidential record are put in for the key 3, which pays them out as a confidential record -/
example (H) : ∃ (parD parO : CS (ZMod Bls.r)) (dep : BarToAbarNote convT ristretto (ZMod Bls.r) (Nat → ZMod Bls.r))
    (out : AbarToBarNote convT secq256k1 ristretto (ZMod Bls.r) (Nat → ZMod Bls.r) (ZMod secq256k1.r) (List (ZMod secq256k1.r)))
    (t : Merkle.Tree) (root : ZMod Bls.r) (x : Parcel (ZMod Bls.r) (ZMod 101)) (i : OpenAbarAt (ZMod Bls.r) (Fix 32) (ZMod 101)),
    (convE H).verifyBarToAbar serBar parD dep 1 = .ok () ∧
    Merkle.runTree sampleCodec (treeHash Rescue.blsParams) [.add (leafHash Rescue.blsParams (0 : Nat) dep.body.output), .commit] = some t ∧
    t.getRoot sampleCodec = some root ∧ anonX.memoRead dep.body.memo = some x.memo ∧ x.abar = dep.body.output ∧ x.uid = 0 ∧
    anonX.receive Rescue.blsParams sampleCodec t (anonX.fromSecret 3) x = some i ∧ (convE H).verifyAbarToBar foldX parO out root () = .ok () ∧
    out.output = (confRec 17179869187).bar := by
  obtain ⟨comm, hf⟩ := sampleFold_honest
  obtain ⟨icomm, hi⟩ := sampleInsp_honest
  have hp := goodBls
  generalize Rescue.blsParams = p at hp hf hi
  obtain ⟨o, m, o1, o2, o3, o4⟩ := someRecord 3 (by decide) 17179869187 8
  obtain ⟨varsD, csD, -, hbD, -, -, -⟩ := C75_bar_to_abar_complete p hp true ristretto ristretto_insp (sampleInsp icomm) 7 9 hi 8 samplePk
  obtain ⟨dep, -, d2, x, d3, d4, d5, d6⟩ := C108_deposit_confidential anonX_laws hp true ristretto_insp ristretto_ge convV (convE H) serBar
    (fun b => ⟨_, rfl⟩) csD _ _ hi.consistent varsD csD hbD (conv_completes H csD _) (confRec 17179869187) rfl (confRec_opens _ _) 1 1
    (fun m => ⟨(1, m), rfl, by simp [convE]⟩) confRand rfl 99 3 o o1 m o2 o3 (by rw [o4]; exact nine H) []
  obtain ⟨-, q, -, -, hpr, hlen, hgood, -, -⟩ := sampleTree p
  obtain ⟨varsO, csO, -, -, hbO, -, -, -, -⟩ := C76_abar_to_bar_complete p hp true secq256k1 ristretto secq_fold
    ristretto_insp secpOrderBytes secpOrder_ok.1 (sampleFold comm) hf (sampleInsp icomm) 7 9 hi (foldPayer q.nodes) q.root
    rfl rfl hgood hpr
  obtain ⟨t, root, i, out, p1, p2, p3, -, p4, p5⟩ := C108_pay_out_confidential anonX_laws hp true secq_fold (by decide) ristretto_insp ristretto_ge
    secpOrderBytes secpOrder_ok.1 convV (convE H) foldX foldM csO (sampleFold comm) hf.consistent (sampleInsp icomm) hi.consistent
    (foldPayer q.nodes) hlen _ _ varsO csO hbO (conv_completes H csO _) sampleCodec
    [.add (leafHash p (0 : Nat) dep.body.output), .commit] (by show 1 ≤ 3 ^ 20; norm_num) [dep.body.output] rfl 3 xfr_key x o d6
    (confRec 17179869187) rfl (confRec_opens _ _) o3 (by rw [o4]; exact nine H) () (foldM_complete _ _) [(100, 1), (200, 2), (300, 3)] rfl 98
    confRand rfl 99
  exact ⟨csD, csO, dep, out, t, root, x, i, d2, p1, p2, d3, d4, d5, p3, p4, p5⟩

end Verif.Anon
