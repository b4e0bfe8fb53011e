import Verif.Anon.PoolRun

/-!
C100 over the field, the hash and the parameters of the code: a run that meets all hypotheses, and a run with the constant zero in
place of one that pays out a thousand units after a deposit of one.
-/

namespace Verif.Anon

open Verif.Plonk Verif.Plonk.Spec Verif.Xfr Verif.SimFr Verif.SimFr.Spec Verif.StateComm Verif.Anon.Spec

/-- a tree that stores the commitments `pre` and then `com`, and the Merkle proof for `com` -/
theorem lastTree (p : Rescue.Params (ZMod Bls.r)) (pre : List (ZMod Bls.r)) (hl : pre.length < 3 ^ 20) (com : ZMod Bls.r) :
    ∃ (root : ZMod Bls.r) (path : List (MTNode (ZMod Bls.r))), IsRoot p sampleCodec (pre ++ [com]) root ∧ path.length = 20 ∧
      (∀ n ∈ path, GoodNode n) ∧ path.foldl (nativeStep p) (leafHash p (pre.length : Nat) com) = root := by
  set ops : List (Merkle.Op (ZMod Bls.r)) := (leavesOf p (pre ++ [com])).map .add with hops
  have hrun : ∀ (l : List (ZMod Bls.r)), (Merkle.Spec.run (l.map Merkle.Op.add)).cur = l := by
    intro l
    induction l using List.reverseRecOn with
    | nil => rfl
    | append_singleton l x ih =>
      simp only [Merkle.Spec.run, List.map_append, List.map_cons, List.map_nil, List.foldl_append, List.foldl_cons, List.foldl_nil] at ih ⊢
      rw [Merkle.Spec.step, ih]
  have hadds : ∀ (l : List (ZMod Bls.r)), Merkle.adds (l.map Merkle.Op.add) = l.length := by
    intro l
    induction l with
    | nil => rfl
    | cons x l ih => simp_all [Merkle.adds]
  have hcur : (Merkle.Spec.run ops).cur = leavesOf p (pre ++ [com]) := hrun _
  have hcap : Merkle.adds ops ≤ 3 ^ 20 := by
    rw [hops, hadds]
    simp [leavesOf]
    omega
  obtain ⟨t, q, ht, hq, hver, hroot, -, hlen⟩ := Merkle.C02_membership_proofs sampleCodec (treeHash p) ops hcap pre.length
    (leafHash p (pre.length : Nat) com) (by rw [hcur]; simp [leavesOf])
  refine ⟨q.root, q.nodes.map mtNode, ⟨ops, t, hcap, hcur, ht, hroot⟩, by simpa using hlen, ?_, ?_⟩
  · intro n hn
    obtain ⟨m, -, rfl⟩ := List.mem_map.mp hn
    exact goodNode_mtNode m
  · unfold Merkle.verify at hver
    simp only [decide_eq_true_eq] at hver
    rw [← hver]
    simp only [List.foldl_map, C53_native_agrees]

/-- the keys of the runs: coordinates 5 and 7, secret key 3 -/
def poolKey : FoldKey := ⟨5, 7, 3⟩

theorem poolKey_ok : poolKey.x < secq256k1.r ∧ poolKey.y < secq256k1.r ∧ poolKey.s < secq256k1.r ∧ poolKey.s < ofLE secpOrderBytes := by
  decide +kernel

abbrev PoolV := PoolEnv convT ristretto secq256k1 (ZMod Bls.r) (CS (ZMod Bls.r)) (Nat → ZMod Bls.r) (ZMod secq256k1.r) Unit
  (List (ZMod secq256k1.r))
abbrev PoolTx := Tx convT secq256k1 (ZMod Bls.r) (ZMod 101) (Nat → ZMod Bls.r) (ZMod secq256k1.r) Unit (List (ZMod secq256k1.r))

/-- A deposit of `a`, a transfer of the record to a record of `b` with fee `f`, and the withdrawal of `b`; `u` is what the transfer has
for the constant one. -/
theorem pool_run (p : Rescue.Params (ZMod Bls.r)) (hp : GoodParams p) (comm : ZMod Bls.r)
    (hh : (sampleFold comm).Honest p (ofLE secpOrderBytes)) (E : XfrExt (ZMod Bls.r) (CS (ZMod Bls.r)) (Nat → ZMod Bls.r)) (u : ZMod Bls.r)
    (hE : ∀ cs tr pubs w, w 1 = u → pubs.length = cs.pubVars.length → Sat cs w pubs → E.plonk cs tr pubs w = true)
    (hK : ∀ cs, KnowsXfr E cs cs id) (a b : UInt64) (f : UInt32) (hmode : (u = 1 ∧ a.toNat = b.toNat + f.toNat) ∨ u = 0)
    (hnul : nullify p (pkWords 5 7) (skWords 3) ((0 : Nat) : ZMod Bls.r) (a.toNat : ZMod Bls.r) ((9 : Nat) : ZMod Bls.r) ≠
      nullify p (pkWords 5 7) (skWords 3) ((1 : Nat) : ZMod Bls.r) (b.toNat : ZMod Bls.r) ((9 : Nat) : ZMod Bls.r)) :
    ∃ (V : PoolV) (W : PoolKnows (ZMod Bls.r) (Nat → ZMod Bls.r)) (txs : List PoolTx) (s : Pool (ZMod Bls.r)),
      V.xfr = E ∧ PoolOk p V W ∧ Pool.Run p V txs s ∧
      (∀ age note root hs, Tx.transfer age note root hs ∈ txs → W.xfrW note 1 = u) ∧
      (∀ e ∈ txs.flatMap (W.opens V), ∀ e' ∈ txs.flatMap (W.opens V), e.2.pk = e'.2.pk → e.1 = e'.1) ∧
      deposited V ((9 : Nat) : ZMod Bls.r) txs = a.toNat ∧ withdrawn V ((9 : Nat) : ZMod Bls.r) txs = b.toNat ∧
      fees V ((9 : Nat) : ZMod Bls.r) txs = f.toNat ∧ s.stored.length = 2 ∧ s.nuls.length = 2 := by
  -- the parameters
  obtain ⟨varsI, csI, hbI, -, -⟩ := C73_ar_to_abar_complete p hp samplePayee
  obtain ⟨varsX, csX, hbX⟩ := blank_circuit p hp comm hh 0 0
  obtain ⟨varsO, csO, -, hbO, -, -, -⟩ := C74_abar_to_ar_complete p hp true secq256k1 secq_fold secpOrderBytes secpOrder_ok.1
    (sampleFold comm) hh blank _ (by
      intro n hn
      obtain rfl := List.eq_of_mem_replicate hn
      exact ⟨.inl ⟨rfl, rfl⟩⟩) rfl
  let V : PoolV := ⟨convE (fun _ => 0), serAr, E, foldX, csI, csO, fun _ _ => csX, fun n m => n = 1 ∧ m = 1, sampleCodec, ((9 : Nat) : ZMod Bls.r)⟩
  let W : PoolKnows (ZMod Bls.r) (Nat → ZMod Bls.r) := ⟨varsI, csI, id, varsO, csO, id, fun _ _ => varsX, fun _ _ => csX, fun _ _ => id⟩
  have hord := order_big
  have hO : PoolOk p V W := by
    refine ⟨hp, secq_fold, by omega, ⟨_, hbI⟩, conv_knows _ _ _, ⟨_, _, _, _, _, _, secpOrder_ok.1, secpOrder_ok.2.1, ?_, hbO⟩, conv_knows _ _ _,
      ?_, fun _ _ _ => hK csX⟩
    · simp [blank]
    · rintro n m ⟨rfl, rfl⟩
      refine ⟨_, _, _, _, _, _, _, _, secpOrder_ok.1, secpOrder_ok.2.1, by simp, by simp, ?_, by omega, by omega, hbX⟩
      intro s hs
      obtain rfl := List.eq_of_mem_replicate hs
      simp [blank]
  -- the deposit
  obtain ⟨n1, -, d1, d2, d3, -⟩ := C80_ar_to_abar_complete p hp convV (convE (fun _ => 0)) serAr (fun b => ⟨_, rfl⟩) csI samplePayee varsI csI hbI
    (conv_completes _ csI _) ⟨⟨.plain a, .plain 9, 1⟩, a, (0, 0), 9, 0⟩ ⟨rfl, rfl⟩ 1 (fun m => ⟨(1, m), rfl, by simp [convE]⟩)
    (pkWords 5 7) 8 ([1], [2])
  have hav := sample_val a.toNat a.toNat_lt
  have hbv := sample_val b.toNat b.toNat_lt
  have hfv := sample_val f.toNat (lt_trans f.toNat_lt (by norm_num))
  set com0 := commit p (pkWords 5 7) 8 (a.toNat : ZMod Bls.r) ((9 : Nat) : ZMod Bls.r) with hcom0
  have d3 : n1.body.output = com0 := d3
  -- the transfer
  obtain ⟨root0, path0, r0, l0, g0, f0⟩ := lastTree p [] (by norm_num) com0
  let s0 : Payer (ZMod Bls.r) := ⟨((0 : Nat) : ZMod Bls.r), (a.toNat : ZMod Bls.r), ((9 : Nat) : ZMod Bls.r), 8, path0⟩
  let t0 : Payee (ZMod Bls.r) := ⟨(b.toNat : ZMod Bls.r), 10, ((9 : Nat) : ZMod Bls.r), pkWords 5 7⟩
  have hm : XfrMode [s0] [t0] ((9 : Nat) : ZMod Bls.r) (f.toNat : ZMod Bls.r) u := by
    rcases hmode with ⟨rfl, hab⟩ | rfl
    · refine .inl ⟨rfl, ⟨s0, by simp, rfl⟩, ?_, ?_, ?_⟩
      · intro t ht
        obtain rfl := List.mem_singleton.mp ht
        exact ⟨s0, by simp, rfl⟩
      · intro s hs hne
        obtain rfl := List.mem_singleton.mp hs
        exact absurd rfl hne
      · intro t
        by_cases h : ((9 : Nat) : ZMod Bls.r) = t
        · subst h
          simp only [s0, t0, decide_true, List.filter_cons, if_true, List.filter_nil, List.map_cons, List.map_nil, List.sum_cons, List.sum_nil,
            hav, hbv, hfv]
          omega
        · simp only [s0, t0, h, Ne.symm h, decide_false, List.filter_cons, if_false, List.filter_nil, List.map_nil, List.sum_nil,
            Bool.false_eq_true, Nat.add_zero]
    · refine .inr ⟨rfl, ?_, ?_⟩
      · intro s hs
        obtain rfl := List.mem_singleton.mp hs
        rfl
      · intro t ht
        obtain rfl := List.mem_singleton.mp ht
        rfl
  obtain ⟨inst0, w0, pubs0, x1, x2, x3, x4, x5, x6⟩ := xfr_assignment (K := ZMod 101) (Par := CS (ZMod Bls.r)) (Pf := Nat → ZMod Bls.r) p hp
    foldX foldM true secq_fold (by decide) secpOrderBytes secpOrder_ok.1 (sampleFold comm) hh.consistent [s0] _ [t0] _ _ _ _
    ((9 : Nat) : ZMod Bls.r) root0 u varsX csX hbX poolKey poolKey_ok () (foldM_complete _ _) f (by simp) (by simp)
    (by
      intro s hs
      obtain rfl := List.mem_singleton.mp hs
      exact ⟨g0, by simp only [s0, hav]; exact a.toNat_lt, f0⟩)
    (by
      intro t ht
      obtain rfl := List.mem_singleton.mp ht
      simp only [t0, hbv]
      exact b.toNat_lt) hm (by simp [blank, s0, l0]) (by simp)
  have x1 := x1 E csX w0 0 [] (hE _ _ _ _ x4 x2 x3)
  set com1 := commit p (pkWords 5 7) 10 (b.toNat : ZMod Bls.r) ((9 : Nat) : ZMod Bls.r) with hcom1
  -- the withdrawal
  obtain ⟨root1, path1, r1, l1, g1, f1⟩ := lastTree p [com0] (by norm_num) com1
  let s1 : Payer (ZMod Bls.r) := ⟨((1 : Nat) : ZMod Bls.r), (b.toNat : ZMod Bls.r), ((9 : Nat) : ZMod Bls.r), 10, path1⟩
  obtain ⟨inst1, w1, pubs1, y1, y2, y3, y4, y5⟩ := withdraw_assignment (S := convT) (Q := ristretto) (Par := CS (ZMod Bls.r))
    (Pf := Nat → ZMod Bls.r) p hp foldX foldM true secq_fold (by decide) secpOrderBytes secpOrder_ok.1 (sampleFold comm) hh.consistent blank _ _
    varsO csO hbO poolKey poolKey_ok () (foldM_complete _ _) s1 root1 g1 f1 (by simp [blank, s1, l1])
  have y1 := y1 (convE (fun _ => 0)) csO w1 b 9 2 rfl rfl (by
    unfold convE
    simp only [decide_eq_true_eq]
    exact ⟨y2, y3⟩)
  -- the run
  set nul0 := nullify p (pkWords 5 7) (skWords 3) ((0 : Nat) : ZMod Bls.r) (a.toNat : ZMod Bls.r) ((9 : Nat) : ZMod Bls.r)
  set nul1 := nullify p (pkWords 5 7) (skWords 3) ((1 : Nat) : ZMod Bls.r) (b.toNat : ZMod Bls.r) ((9 : Nat) : ZMod Bls.r)
  let n2 : XfrNote secq256k1 (ZMod Bls.r) (ZMod 101) (Nat → ZMod Bls.r) (ZMod secq256k1.r) (List (ZMod secq256k1.r)) :=
    ⟨⟨[nul0], [com1], root0, 0, f, []⟩, w0, inst0⟩
  let n3 : AbarToArNote convT secq256k1 (ZMod Bls.r) (Nat → ZMod Bls.r) (ZMod secq256k1.r) (List (ZMod secq256k1.r)) :=
    ⟨nul1, ⟨.plain b, .plain 9, 2⟩, root1, w1, inst1⟩
  have hrun : Pool.Run p V ((([] ++ [Tx.deposit n1]) ++ [Tx.transfer 1 n2 root0 ()]) ++ [Tx.withdraw 2 n3 root1 ()] : List PoolTx)
      ⟨[com0, com1], [nul0, nul1]⟩ := by
    refine .snoc (s := ⟨[com0, com1], [nul0]⟩) (.snoc (s := ⟨[com0], []⟩) (.snoc (s := ⟨[], []⟩) .nil ?_) ?_) ?_
    · have := Pool.Step.deposit (K := ZMod 101) (p := p) (V := V) ⟨[], []⟩ n1 d1
      rw [d3] at this
      exact this
    · exact Pool.Step.transfer (p := p) (V := V) ⟨[com0], []⟩ 1 n2 root0 () r0 ⟨rfl, rfl⟩ x1 (by simp [n2]) (by simp)
    · exact Pool.Step.withdraw (p := p) (V := V) ⟨[com0, com1], [nul0]⟩ 2 n3 root1 () r1 y1 (by simpa [n3] using hnul.symm)
  refine ⟨V, W, _, _, rfl, hO, hrun, ?_, ?_, ?_, ?_, ?_, rfl, rfl⟩
  · intro age note root hs h
    simp only [List.nil_append, List.cons_append, List.mem_cons, List.not_mem_nil, or_false, reduceCtorEq, false_or,
      Tx.transfer.injEq] at h
    obtain ⟨-, rfl, -⟩ := h
    exact x4
  · have hsk : ∀ e ∈ (([] ++ [Tx.deposit n1]) ++ [Tx.transfer 1 n2 root0 ()] ++ [Tx.withdraw 2 n3 root1 ()] : List PoolTx).flatMap (W.opens V),
        e.1 = skWords 3 := by
      intro e he
      simp only [List.nil_append, List.cons_append, List.flatMap_cons, List.flatMap_nil, List.append_nil, PoolKnows.opens, List.mem_append,
        List.mem_map] at he
      rcases he with ⟨_, _, rfl⟩ | he
      · exact x6
      · obtain rfl := List.mem_singleton.mp he
        exact y5
    intro e he e' he' _
    rw [hsk e he, hsk e' he']
  · simp [deposited, unitsOf, d2, V, convE]
  · simp [withdrawn, unitsOf, n3, V, convE]
  · simp [fees, n2, V]

theorem hash4_eval (a b c d : Nat) : hash4 Rescue.blsParams (a : ZMod Bls.r) (b : ZMod Bls.r) (c : ZMod Bls.r) (d : ZMod Bls.r) =
    ((Rescue.blsRescueN (a, b, c, d)).1 : ZMod Bls.r) := by
  have h := Rescue.blsRescue_eval (a, b, c, d)
  generalize Rescue.blsRescueN (a, b, c, d) = o at h ⊢
  generalize Rescue.blsParams = p at h ⊢
  simp only [Rescue.toF, Rescue.mapSt] at h
  unfold hash4
  rw [h]

/-- the nullifier of a record of type 9 for the key of the runs, as a number -/
def nulN (uid amount : Nat) : Nat :=
  (Rescue.blsRescueN ((Rescue.blsRescueN (uid * 2 ^ 64 + amount, 9, (5 + 2 ^ 256 * 7) % 2 ^ 248, (5 + 2 ^ 256 * 7) / 2 ^ 248 % 2 ^ 248)).1,
    (5 + 2 ^ 256 * 7) / 2 ^ 496, 3 % 2 ^ 248, 3 / 2 ^ 248)).1

theorem nulN_cast (uid amount : Nat) :
    nullify Rescue.blsParams (pkWords 5 7) (skWords 3) (uid : ZMod Bls.r) (amount : ZMod Bls.r) ((9 : Nat) : ZMod Bls.r) =
      (nulN uid amount : ZMod Bls.r) := by
  unfold nullify nulN pkWords skWords
  rw [← hash4_eval, ← hash4_eval]
  simp only [Nat.cast_add, Nat.cast_mul, Nat.cast_pow, Nat.cast_ofNat]

theorem nul_ne (a b : Nat) (h : nulN 0 a % Bls.r ≠ nulN 1 b % Bls.r) :
    nullify Rescue.blsParams (pkWords 5 7) (skWords 3) ((0 : Nat) : ZMod Bls.r) (a : ZMod Bls.r) ((9 : Nat) : ZMod Bls.r) ≠
      nullify Rescue.blsParams (pkWords 5 7) (skWords 3) ((1 : Nat) : ZMod Bls.r) (b : ZMod Bls.r) ((9 : Nat) : ZMod Bls.r) := by
  rw [nulN_cast, nulN_cast]
  exact fun e => h ((ZMod.natCast_eq_natCast_iff' _ _ _).mp e)

/-- The hypotheses of C100 are met: seven units are put in, five are transferred with a fee of two and then paid out. -/
example : ∃ (V : PoolV) (W : PoolKnows (ZMod Bls.r) (Nat → ZMod Bls.r)) (txs : List PoolTx) (s : Pool (ZMod Bls.r)),
    PoolOk Rescue.blsParams V W ∧ Pool.Run Rescue.blsParams V txs s ∧
    (∀ age note root hs, Tx.transfer age note root hs ∈ txs → W.xfrW note 1 = 1) ∧
    (∀ e ∈ txs.flatMap (W.opens V), ∀ e' ∈ txs.flatMap (W.opens V), e.2.pk = e'.2.pk → e.1 = e'.1) ∧
    deposited V ((9 : Nat) : ZMod Bls.r) txs = 7 ∧ withdrawn V ((9 : Nat) : ZMod Bls.r) txs = 5 ∧ fees V ((9 : Nat) : ZMod Bls.r) txs = 2 ∧
    s.stored.length = 2 ∧ s.nuls.length = 2 := by
  obtain ⟨comm, hh⟩ := sampleFold_honest
  obtain ⟨V, W, txs, s, -, h⟩ := pool_run Rescue.blsParams goodBls comm hh xfrFixed 1 (by
    intro cs tr pubs w h1 h2 h3
    simp only [xfrFixed, decide_eq_true_eq]
    exact ⟨h1, h2, h3⟩) xfr_knows 7 5 2 (.inl ⟨rfl, rfl⟩) (nul_ne 7 5 (by decide +kernel))
  exact ⟨V, W, txs, s, h⟩

/-- C100 fails without the constant one: the argument system knows assignments of the circuits of the code, all notes are accepted, all
roots are of the tree, all nullifiers are new and there is one secret key for the public key; one unit is put in and a thousand are paid
out. -/
theorem C100_inflation_violated : ∃ (V : PoolV) (W : PoolKnows (ZMod Bls.r) (Nat → ZMod Bls.r)) (txs : List PoolTx) (s : Pool (ZMod Bls.r)),
    PoolOk Rescue.blsParams V W ∧ Pool.Run Rescue.blsParams V txs s ∧
    (∀ e ∈ txs.flatMap (W.opens V), ∀ e' ∈ txs.flatMap (W.opens V), e.2.pk = e'.2.pk → e.1 = e'.1) ∧
    deposited V ((9 : Nat) : ZMod Bls.r) txs = 1 ∧ withdrawn V ((9 : Nat) : ZMod Bls.r) txs = 1000 := by
  obtain ⟨comm, hh⟩ := sampleFold_honest
  obtain ⟨V, W, txs, s, -, h1, h2, -, h3, h4, h5, -⟩ := pool_run Rescue.blsParams goodBls comm hh xfrE 0 (by
    intro cs tr pubs w _ h2 h3
    simp only [xfrE, decide_eq_true_eq]
    exact ⟨h2, h3⟩) (by
    intro cs tr pubs pf h
    simp only [xfrE, decide_eq_true_eq] at h
    exact h) 1 1000 0 (.inr rfl) (nul_ne 1 1000 (by decide +kernel))
  exact ⟨V, W, txs, s, h1, h2, h3, h4, h5⟩

end Verif.Anon
