import Verif.Anon.PoolConf
import Verif.Anon.PoolExamples

/-!
The hypotheses of C103 are met over the field, the hash and the parameters of the code: seven units enter as a confidential record,
five as a transparent one, and five leave as a confidential record.
-/

namespace Verif.Anon

open Verif.Plonk Verif.Plonk.Spec Verif.Xfr Verif.SimFr Verif.SimFr.Spec Verif.StateComm Verif.Anon.Spec
open Verif.DelegatedSchnorr (Tr Msg)

abbrev ConfV := ConfEnv convT ristretto secq256k1 (ZMod Bls.r) (CS (ZMod Bls.r)) (Nat → ZMod Bls.r) (ZMod secq256k1.r) Unit
  (List (ZMod secq256k1.r))
abbrev ConfW := ConfKnows convT ristretto secq256k1 (ZMod Bls.r) (Nat → ZMod Bls.r) (ZMod secq256k1.r) Unit
  (List (ZMod secq256k1.r))
abbrev ConfT := ConfTx convT ristretto secq256k1 (ZMod Bls.r) (ZMod 101) (Nat → ZMod Bls.r) (ZMod secq256k1.r) Unit
  (List (ZMod secq256k1.r))

/-- the opening of `confRec a` -/
noncomputable def confWhole (a : UInt64) : Whole ristretto := (RecOpening.ofRec (convE (convH 0 0)) (confRec a)).whole

theorem confWhole_opens (a : UInt64) : (confWhole a).Opens (convE (convH 0 0)) (confRec a).bar := opens_whole (confRec_opens _ a)

theorem confWhole_units (a : UInt64) : (confWhole a).amount = a.toNat ∧ (confWhole a).ty = 9 :=
  ⟨Xfr.C22_split_recombines a, rfl⟩

/-- the challenges and responses of the rewound prover for `confRec a` -/
def confRewind (a : UInt64) {A : Type} (answer : Fin 2 → Fin 2 → A) : Rewind convT ristretto (ZMod Bls.r) A where
  oracle := convH
  beta b := ((b.val + 2 : Nat) : ZMod ristretto.r)
  lambda _ l := ((l.val + 1 : Nat) : ZMod ristretto.r)
  responses := confResponses a
  answer := answer

theorem confRewind_challenges (a : UInt64) {A : Type} (answer : Fin 2 → Fin 2 → A) (label : String) (bound comm : ZMod Bls.r)
    (c : ZMod ristretto.r × ZMod ristretto.r) :
    (confRewind a answer).Challenges barGens label bound c comm confRandomizers where
  beta b l := by
    unfold confRewind convH
    simp only
    rw [if_pos (by simp [DelegatedSchnorr.point1, confRandomizers, confRand])]
  beta_ne := convH_ne.1 0
  lambda b l := by
    unfold confRewind convH
    simp only
    rw [if_neg (by simp [DelegatedSchnorr.point1, DelegatedSchnorr.point2, confRandomizers, confRand, confResponses, confData])]
  lambda_ne _ := convH_ne.2

theorem confBars_ne : (confRec 7).bar ≠ (confRec 5).bar := by
  intro h
  have h := congrArg (fun r : BlindAssetRecord convT => r.amount) h
  simp only [confRec, XfrAmount.conf.injEq] at h
  have h1 := add_right_cancel h.1
  rw [ZMod.natCast_eq_natCast_iff', Nat.mod_eq_of_lt (by decide +kernel), Nat.mod_eq_of_lt (by decide +kernel)] at h1
  revert h1
  decide +kernel

/-- the openings of the two ordinary records -/
noncomputable def confBook (r : BlindAssetRecord convT) : Option (Whole ristretto) := by
  classical
  exact if r = (confRec 7).bar then some (confWhole 7) else some (confWhole 5)

theorem confBook_eq : confBook (confRec 7).bar = some (confWhole 7) ∧ confBook (confRec 5).bar = some (confWhole 5) := by
  unfold confBook
  exact ⟨if_pos rfl, if_neg confBars_ne.symm⟩

/-- A ledger, extractors, and a run of it: what is asked of them by C103, and the steps. -/
theorem confPool_run : ∃ (V : ConfV) (W : ConfW) (n0 : BarToAbarNote convT ristretto (ZMod Bls.r) (Nat → ZMod Bls.r))
    (n1 : ArToAbarNote convT (ZMod Bls.r) (Nat → ZMod Bls.r)) (n2 : AbarToBarNote convT secq256k1 ristretto (ZMod Bls.r)
      (Nat → ZMod Bls.r) (ZMod secq256k1.r) (List (ZMod secq256k1.r))) (root com0 com1 : ZMod Bls.r),
    V.conv = convE (convH 0 0) ∧ W.book = confBook ∧ ConfOk Rescue.blsParams V W ∧
    ConfRun Rescue.blsParams V W [(.deposit n0 1 : ConfT), .plain (.deposit n1), .withdraw 2 n2 root ()] ∧
    ConfPool.Step Rescue.blsParams V ⟨[], []⟩ (.deposit n0 1 : ConfT) ⟨[com0], []⟩ ∧
    ConfPool.Step Rescue.blsParams V ⟨[com0], []⟩ (.plain (.deposit n1) : ConfT) ⟨[com0, com1], []⟩ ∧
    ConfPool.Step Rescue.blsParams V ⟨[com0, com1], []⟩ (.withdraw 2 n2 root () : ConfT) ⟨[com0, com1], [n2.input]⟩ ∧
    n0.body.input = (confRec 7).bar ∧ n1.body.input = ⟨.plain 5, .plain 9, 1⟩ ∧ n2.output = (confRec 5).bar := by
  obtain ⟨comm, hh⟩ := sampleFold_honest
  obtain ⟨icomm, hi⟩ := sampleInsp_honest
  have hp := goodBls
  generalize Rescue.blsParams = p at hp hh hi
  -- the parameters
  obtain ⟨varsI, csI, hbI, -, -⟩ := C73_ar_to_abar_complete p hp samplePayee
  obtain ⟨varsX, csX, hbX⟩ := blank_circuit p hp comm hh 0 0
  obtain ⟨varsO, csO, -, hbO, -, -, -⟩ := C74_abar_to_ar_complete p hp true secq256k1 secq_fold secpOrderBytes secpOrder_ok.1
    (sampleFold comm) hh blank _ (by
      intro n hn
      obtain rfl := List.eq_of_mem_replicate hn
      exact ⟨.inl ⟨rfl, rfl⟩⟩) rfl
  obtain ⟨varsB, csB, -, hbB, -, -, -⟩ := C75_bar_to_abar_complete p hp true ristretto ristretto_insp (sampleInsp icomm) 7 9 hi 8 samplePk
  obtain ⟨_, q, -, -, hpr, hlen, hgood, -, -⟩ := sampleTree p
  obtain ⟨varsC, csC, -, -, hbC, -, -, -, -⟩ := C76_abar_to_bar_complete p hp true secq256k1 ristretto secq_fold
    ristretto_insp secpOrderBytes secpOrder_ok.1 (sampleFold comm) hh (sampleInsp icomm) 7 9 hi (foldPayer q.nodes) q.root
    rfl rfl hgood hpr
  -- the confidential deposit
  have genB := fun b l => C80_bar_to_abar_complete p hp true ristretto_insp ristretto_ge convV (convE (convH b l)) serBar (fun b => ⟨_, rfl⟩)
    csB _ _ hi.consistent varsB csB hbB (conv_completes _ csB _) (confRec 7) rfl (confRec_opens _ _) 1 1
    (fun m => ⟨(1, m), rfl, by simp [convE]⟩) samplePk 8 ([1], []) confRand rfl 99
  choose nB h1 h2 h3 h4 h5 using genB
  obtain ⟨k, hk⟩ := conf_state p 7
  have hschB : ∀ b l, (nB b l).body.schnorr = ⟨k, confRandomizers, confResponses 7 b⟩ := by
    intro b l
    obtain ⟨beta, e1, e2⟩ := genBarToAbar_schnorr p convV (convE (convH b l)) true serBar csB (confRec 7) 1 samplePk 8 ([1], []) _ 99
      (nB b l) k hk (h1 b l)
    have : beta = ((b.val + 2 : Nat) : ZMod ristretto.r) := by
      rw [e2]
      unfold convE convH
      simp only []
      rw [if_pos (by simp [DelegatedSchnorr.point1, OpenRec.data, confRand])]
    subst this
    exact e1
  have accB : ∀ b l, ({ convE (convH 0 0) with oracle := convH b l } : ConvExt convT ristretto (ZMod Bls.r) _ _).verifyBarToAbarBody csB
      (confRec 7).bar (nB 0 0).body.output ⟨k, confRandomizers, confResponses 7 b⟩ (nB b l).body.proof = .ok () := by
    intro b l
    have := h2 b l
    unfold ConvExt.verifyBarToAbar at this
    obtain ⟨_, e, -⟩ := Res.bind_eq_ok.mp this
    rw [h3, h4, hschB] at e
    rw [h4]
    exact e
  set com0 := (nB 0 0).body.output with hcom0
  -- the transparent deposit
  obtain ⟨n1, -, d1, d2, d3, -⟩ := C80_ar_to_abar_complete p hp convV (convE (convH 0 0)) serAr (fun b => ⟨_, rfl⟩) csI samplePayee varsI csI
    hbI (conv_completes _ csI _) ⟨⟨.plain 5, .plain 9, 1⟩, 5, (0, 0), 9, 0⟩ ⟨rfl, rfl⟩ 1 (fun m => ⟨(1, m), rfl, by simp [convE]⟩)
    (pkWords 5 7) 8 ([1], [2])
  set com1 := commit p (pkWords 5 7) 8 (((5 : UInt64).toNat : Nat) : ZMod Bls.r) ((9 : Nat) : ZMod Bls.r) with hcom1
  have d3 : n1.body.output = com1 := d3
  -- the confidential withdrawal
  obtain ⟨root1, path1, r1, l1, g1, f1⟩ := lastTree p [com0] (by norm_num) com1
  have genC := fun b l => C80_abar_to_bar_complete p hp true secq_fold (by decide) ristretto_insp ristretto_ge secpOrderBytes secpOrder_ok.1 convV
    (convE (convH b l)) foldX foldM csC (sampleFold comm) hh.consistent (sampleInsp icomm) hi.consistent (foldPayer q.nodes) _ _ varsC csC hbC
    (conv_completes _ csC _) ((1 : Nat) : ZMod Bls.r) 8 path1 (by rw [l1, hlen]) g1 root1 (confRec 5) rfl (confRec_opens _ _) poolKey poolKey_ok
    f1 () (foldM_complete _ _) [(100, 1), (200, 2), (300, 3)] rfl 98 confRand rfl 99
  choose nC e1 e2 e3 e4 using genC
  obtain ⟨k', hk'⟩ := conf_state p 5
  have hschC : ∀ b l, (nC b l).schnorr = ⟨k', confRandomizers, confResponses 5 b⟩ := by
    intro b l
    obtain ⟨beta, q1, q2⟩ := genAbarToBar_schnorr p convV (convE (convH b l)) foldX foldM true secpOrderBytes csC _ _ _ _ (confRec 5) _ _ _ _
      confRand 99 (nC b l) k' hk' (e1 b l)
    have : beta = ((b.val + 2 : Nat) : ZMod ristretto.r) := by
      rw [q2]
      unfold convE convH
      simp only []
      rw [if_pos (by simp [DelegatedSchnorr.point1, OpenRec.data, confRand])]
    subst this
    exact q1
  -- the run
  let V : ConfV := ⟨⟨convE (convH 0 0), serAr, xfrFixed, foldX, csI, csO, fun _ _ => csX, fun n m => n = 1 ∧ m = 1, sampleCodec,
    ((9 : Nat) : ZMod Bls.r)⟩, serBar, csB, csC⟩
  let W : ConfW := ⟨⟨varsI, csI, id, varsO, csO, id, fun _ _ => varsX, fun _ _ => csX, fun _ _ => id⟩, varsB, csB, id, varsC, csC, id,
    confBook,
    fun _ => confRewind 7 (fun b l => (nB b l).body.proof), fun _ => confRewind 5 (fun b l => (nC b l, ()))⟩
  have hord := order_big
  have hO : ConfOk p V W := by
    refine ⟨⟨hp, secq_fold, by omega, ⟨_, hbI⟩, conv_knows _ _ _, ⟨_, _, _, _, _, _, secpOrder_ok.1, secpOrder_ok.2.1, ?_, hbO⟩,
      conv_knows _ _ _, ?_, fun _ _ _ => xfr_knows csX⟩, ristretto_insp, ristretto_ge, ?_, ⟨_, _, _, hbB⟩, conv_knows _ _ _,
      ⟨_, _, _, _, _, _, _, secpOrder_ok.1, secpOrder_ok.2.1, hlen, hbC⟩, conv_knows _ _ _⟩
    · simp [blank]
    · rintro n m ⟨rfl, rfl⟩
      refine ⟨_, _, _, _, _, _, _, _, secpOrder_ok.1, secpOrder_ok.2.1, by simp, by simp, ?_, by omega, by omega, hbX⟩
      intro s hs
      obtain rfl := List.eq_of_mem_replicate hs
      simp [blank]
    · show 2 ^ 240 ≤ Bls.r
      unfold Bls.r
      norm_num
  have b7 : W.book (confRec 7).bar = some (confWhole 7) := confBook_eq.1
  have b5 : W.book (confRec 5).bar = some (confWhole 5) := confBook_eq.2
  refine ⟨V, W, nB 0 0, n1, nC 0 0, root1, com0, com1, rfl, rfl, hO, ?_, ?_, ?_, ?_, h3 0 0, d2, e4 0 0⟩
  · refine ⟨?_, ?_, ?_, ?_⟩
    · intro age note root hs h
      simp at h
    · intro note key h
      simp only [List.mem_cons, List.not_mem_nil, or_false, reduceCtorEq, ConfTx.deposit.injEq] at h
      obtain ⟨rfl, rfl⟩ := h
      rw [h3]
      refine ⟨_, b7, by rw [h3]; exact confWhole_opens 7, rfl, ?_, ?_⟩
      · rw [hschB]
        exact confRewind_challenges 7 _ _ _ _ _
      · intro b l
        rw [hschB, h3]
        exact accB b l
    · intro age note root hs h o ho
      simp only [List.mem_cons, List.not_mem_nil, or_false, reduceCtorEq, false_or,
        ConfTx.withdraw.injEq] at h
      obtain ⟨rfl, rfl, rfl, -⟩ := h
      rw [e4, b5] at ho
      obtain rfl := Option.some.inj ho
      refine ⟨by rw [e4]; exact confWhole_opens 5, rfl, ?_, ?_, ?_⟩
      · rw [hschC]
        exact confRewind_challenges 5 _ _ _ _ _
      · intro b l
        refine ⟨?_, ?_, ?_⟩
        · show (nC b l).input = (nC 0 0).input
          rw [e3, e3]
          rfl
        · show (nC b l).output = (nC 0 0).output
          rw [e4, e4]
        · show (nC b l).schnorr = _
          rw [hschC, hschC]
          rfl
      · intro b l
        exact e2 b l
    · have hsingle : ([ConfTx.deposit (nB 0 0) 1, .plain (.deposit n1), .withdraw 2 (nC 0 0) root1 ()] : List ConfT).flatMap
          (W.opens V) = W.opens V (.withdraw 2 (nC 0 0) root1 () : ConfT) := rfl
      obtain ⟨x, hx⟩ : ∃ x, W.opens V (.withdraw 2 (nC 0 0) root1 () : ConfT) = [x] := ⟨_, rfl⟩
      rw [hsingle, hx]
      intro e he e' he' _
      rw [List.mem_singleton.mp he, List.mem_singleton.mp he']
  · exact ConfPool.Step.deposit (K := ZMod 101) (p := p) (V := V) ⟨[], []⟩ (nB 0 0) 1 (h2 0 0)
  · have := Pool.Step.deposit (K := ZMod 101) (p := p) (V := V.toPoolEnv) ⟨[com0], []⟩ n1 d1
    rw [d3] at this
    exact .plain _ _ _ this
  · exact ConfPool.Step.withdraw (K := ZMod 101) (p := p) (V := V) ⟨[com0, com1], []⟩ 2 (nC 0 0) root1 () r1 (e2 0 0) (by simp)

theorem confBook_units (W : ConfW) (h : W.book = confBook) : W.units ((9 : Nat) : ZMod Bls.r) (confRec 7).bar = 7 ∧
    W.units ((9 : Nat) : ZMod Bls.r) (confRec 5).bar = 5 := by
  constructor
  · unfold ConfKnows.units
    rw [h, confBook_eq.1]
    simp only
    rw [(confWhole_units 7).1, (confWhole_units 7).2, if_pos rfl]
    rfl
  · unfold ConfKnows.units
    rw [h, confBook_eq.2]
    simp only
    rw [(confWhole_units 5).1, (confWhole_units 5).2, if_pos rfl]
    rfl

/-- The hypotheses of C103 are met. -/
example : ∃ (V : ConfV) (W : ConfW) (txs : List ConfT) (s : Pool (ZMod Bls.r)), ConfOk Rescue.blsParams V W ∧
    ConfPool.Run Rescue.blsParams V txs s ∧ ConfRun Rescue.blsParams V W txs ∧
    W.deposited V ((9 : Nat) : ZMod Bls.r) txs = 12 ∧ W.withdrawn V ((9 : Nat) : ZMod Bls.r) txs = 5 ∧
    s.stored.length = 2 ∧ s.nuls.length = 1 := by
  obtain ⟨V, W, n0, n1, n2, root, com0, com1, hV, hW, hO, hall, s1, s2, s3, e0, e1, e2⟩ := confPool_run
  refine ⟨V, W, _, _, hO, .snoc (.snoc (.snoc .nil s1) s2) s3, hall, ?_, ?_, rfl, rfl⟩
  · simp only [ConfKnows.deposited, List.nil_append, List.cons_append, List.map_cons, List.map_nil, List.sum_cons, List.sum_nil, e0,
      (confBook_units W hW).1]
    simp [Anon.deposited, unitsOf, e1, hV, convE]
  · simp only [ConfKnows.withdrawn, List.nil_append, List.cons_append, List.map_cons, List.map_nil, List.sum_cons, List.sum_nil, e2,
      (confBook_units W hW).2]
    simp [Anon.withdrawn]

end Verif.Anon
