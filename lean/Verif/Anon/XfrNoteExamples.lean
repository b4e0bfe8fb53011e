import Verif.Anon.XfrNoteGen
import Verif.Anon.ConvertEndExamples

/-!
The hypotheses of C83 and C84 are met over the field, the hash and the parameters of the code.  The argument system is the
ideal one, whose proofs are assignments.
-/

namespace Verif.Anon

open Verif.Plonk Verif.Plonk.Spec Verif.Xfr Verif.SimFr Verif.SimFr.Spec Verif.StateComm Verif.Anon.Spec

/-- proofs are assignments, parameters are systems -/
noncomputable def xfrE : XfrExt (ZMod Bls.r) (CS (ZMod Bls.r)) (Nat → ZMod Bls.r) where
  plonk cs _ pubs w := by
    classical
    exact decide (pubs.length = cs.pubVars.length ∧ Sat cs w pubs)

/-- the same for a system that fixes the variable at index one -/
noncomputable def xfrFixed : XfrExt (ZMod Bls.r) (CS (ZMod Bls.r)) (Nat → ZMod Bls.r) where
  plonk cs _ pubs w := by
    classical
    exact decide (w 1 = 1 ∧ pubs.length = cs.pubVars.length ∧ Sat cs w pubs)

def xfrV : XfrProver (ZMod Bls.r) (CS (ZMod Bls.r)) (Nat → ZMod Bls.r) where
  prove _ _ w := .ok (fun i => w[i]?.getD 0)

theorem online_length (cs cs' : CS (ZMod Bls.r)) (hsh : cs'.shape = cs.shape) : cs'.online.length = cs.pubVars.length := by
  rw [show cs.pubVars = cs'.pubVars from (show cs.shape.pubVars = cs'.shape.pubVars by rw [hsh])]
  simp [CS.online]

theorem xfr_completes (cs : CS (ZMod Bls.r)) (tr) (cs' : CS (ZMod Bls.r)) (hsh : cs'.shape = cs.shape) (h1 : cs'.value 1 = 1)
    (hs : Sat cs' cs'.value cs'.online) :
    ∃ pf, xfrV.prove cs tr cs'.witness = .ok pf ∧ xfrFixed.plonk cs tr cs'.online pf = true := by
  refine ⟨cs'.value, rfl, ?_⟩
  unfold xfrFixed
  simp only [decide_eq_true_eq]
  exact ⟨h1, online_length cs cs' hsh, Sat.shape hsh.symm hs⟩

theorem xfr_proves (cs : CS (ZMod Bls.r)) : ProvesXfr xfrE cs cs := by
  intro tr pubs w h1 h2
  exact ⟨w, by simp only [xfrE, decide_eq_true_eq]; exact ⟨h1, h2⟩⟩

theorem xfr_knows (cs : CS (ZMod Bls.r)) : KnowsXfr xfrFixed cs cs id := by
  intro tr pubs pf h
  simp only [xfrFixed, decide_eq_true_eq] at h
  exact h.2

theorem xfr_one (E : XfrNote secq256k1 (ZMod Bls.r) (ZMod 101) (Nat → ZMod Bls.r) (ZMod secq256k1.r) (List (ZMod secq256k1.r)))
    (cs root) (h : xfrFixed.verifyNote foldX cs E root () = .ok ()) : E.proof 1 = 1 := by
  obtain ⟨_, _, _, _, _, _, hp⟩ := verifyNote_ok h
  simp only [xfrFixed, decide_eq_true_eq] at hp
  exact hp.1

/-- a tree that stores one commitment, and its Merkle proof -/
theorem oneTree (p : Rescue.Params (ZMod Bls.r)) (com : ZMod Bls.r) : ∃ t, ∃ q : Merkle.Proof (ZMod Bls.r), Merkle.runTree sampleCodec (treeHash p)
      [.add (leafHash p (0 : Nat) com), .commit] = some t ∧ t.getRoot sampleCodec = some q.root ∧ q.nodes.length = 20 ∧
    (q.nodes.map mtNode).foldl (nativeStep p) (leafHash p (0 : Nat) com) = q.root ∧
    (Merkle.Spec.run [.add (leafHash p (0 : Nat) com), .commit]).cur = leavesOf p [com] ∧
    Merkle.adds [.add (leafHash p (0 : Nat) com), .commit] ≤ 3 ^ 20 := by
  set ops : List (Merkle.Op (ZMod Bls.r)) := [.add (leafHash p (0 : Nat) com), .commit] with hops
  have hcur : (Merkle.Spec.run ops).cur = leavesOf p [com] := by
    rw [hops]
    rfl
  have hcap : Merkle.adds ops ≤ 3 ^ 20 := by
    rw [hops]
    show 1 ≤ 3 ^ 20
    norm_num
  obtain ⟨t, q, ht, hq, hver, hroot, -, hlen⟩ := Merkle.C02_membership_proofs sampleCodec (treeHash p) ops hcap 0
    (leafHash p (0 : Nat) com) (by rw [hcur]; rfl)
  refine ⟨t, q, ht, hroot, by simpa using hlen, ?_, hcur, hcap⟩
  unfold Merkle.verify at hver
  simp only [decide_eq_true_eq] at hver
  rw [← hver]
  simp only [List.foldl_map, C53_native_agrees]

/-- the asset type with scalar `n` -/
def tyOf (n : UInt8) : Fix 32 := ⟨n :: List.replicate 31 0, by simp⟩

theorem tyOf_scalar (n : UInt8) : anonX.asScalar (tyOf n) = ((n.toNat : Nat) : ZMod Bls.r) := by
  show ((ofLE (n :: List.replicate 31 0) : Nat) : ZMod Bls.r) = _
  congr 1

/-- the key pair of the examples -/
def xfrKp : AKeyPair (ZMod 101) := ⟨3, 21⟩

/-- the words of its public key -/
def xfrPk : PK (ZMod Bls.r) := anonX.words xfrKp.pub

/-- a record of amount 7 under uid 0 -/
def xfrIn (path : List (MTNode (ZMod Bls.r))) (root : ZMod Bls.r) : OpenAbarAt (ZMod Bls.r) (Fix 32) (ZMod 101) :=
  ⟨⟨7, tyOf 9, 8, 21, none⟩, some ⟨path, root, 4, 0⟩⟩

/-- a record of amount `a` -/
def xfrOut (a : UInt64) : OpenAbarAt (ZMod Bls.r) (Fix 32) (ZMod 101) := ⟨⟨a, tyOf 9, 10, 33, some ⟨5, [1, 2]⟩⟩, none⟩

/-- the commitment of the input -/
def xfrCom (p : Rescue.Params (ZMod Bls.r)) : ZMod Bls.r := commit p xfrPk 8 (7 : Nat) (9 : Nat)

theorem xfrIn_root (p : Rescue.Params (ZMod Bls.r)) (path : List (MTNode (ZMod Bls.r))) (root : ZMod Bls.r)
    (h : path.foldl (nativeStep p) (leafHash p (0 : Nat) (xfrCom p)) = root) :
    payerRoot p (anonX.words xfrKp.pub) (anonX.payerOf (xfrIn path root)) = root := by
  rw [← h]
  unfold payerRoot AnonExt.payerOf
  simp only [xfrIn, info, Option.getD_some]
  rfl

theorem xfr_co (k : ZMod 101) : (anonX.coord k).1 < 2 ^ 256 ∧ (anonX.coord k).2 < 2 ^ 256 := anonX_laws.coord_lt k

theorem xfr_key : (anonX.coord xfrKp.pub).1 < secq256k1.r ∧ (anonX.coord xfrKp.pub).2 < secq256k1.r ∧ xfrKp.sec < secq256k1.r ∧
    xfrKp.sec < ofLE secpOrderBytes := by decide +kernel

/-- a circuit for `n` payers with the given paths and `m` payees, made from the sample folding -/
theorem xfr_circuit (p : Rescue.Params (ZMod Bls.r)) (hp : GoodParams p) (comm : ZMod Bls.r)
    (hh : (sampleFold comm).Honest p (ofLE secpOrderBytes)) (payers : List (Payer (ZMod Bls.r))) (payees : List (Payee (ZMod Bls.r)))
    (feeType fee root : ZMod Bls.r) (hne : payers ≠ []) (hne' : payees ≠ [])
    (hg : ∀ s ∈ payers, GoodPayer p (pkWords 5 7) root s) (hg' : ∀ t ∈ payees, ScalarRepr.val t.amount < 2 ^ 64)
    (hb : Balanced payers payees feeType fee) :
    ∃ vars cs, buildMultiXfr p (foldingCircuit p true secq256k1 secpOrderBytes (sampleFold comm)) payers payees (pkWords 5 7) (skWords 3) fee
      feeType CS.new = some (vars, cs) := by
  obtain ⟨vars, cs, _, _, h, _⟩ := C67_transfer_folding_complete p hp true secq256k1 secq_fold secpOrderBytes secpOrder_ok.1 (sampleFold comm) hh
    payers payees fee feeType root hne hne' hg hg' hb
  exact ⟨vars, cs, h⟩

/-- the payers and payees the parameters are made from: as many as asked for, of amount zero -/
def blank : Payer (ZMod Bls.r) := ⟨0, ((0 : Nat) : ZMod Bls.r), ((9 : Nat) : ZMod Bls.r), 0, List.replicate 20 ⟨0, 0, 1, 0⟩⟩
def blankOut : Payee (ZMod Bls.r) := ⟨((0 : Nat) : ZMod Bls.r), 0, ((9 : Nat) : ZMod Bls.r), (0, 0, 0)⟩

theorem blank_circuit (p : Rescue.Params (ZMod Bls.r)) (hp : GoodParams p) (comm : ZMod Bls.r)
    (hh : (sampleFold comm).Honest p (ofLE secpOrderBytes)) (n m : Nat) :
    ∃ vars cs, buildMultiXfr p (foldingCircuit p true secq256k1 secpOrderBytes (sampleFold comm)) (List.replicate (n + 1) blank)
      (List.replicate (m + 1) blankOut) (pkWords 5 7) (skWords 3) ((0 : Nat) : ZMod Bls.r) ((9 : Nat) : ZMod Bls.r) CS.new = some (vars, cs) := by
  refine xfr_circuit p hp comm hh _ _ _ _ (payerRoot p (pkWords 5 7) blank) (by simp) (by simp) ?_ ?_ ?_
  · intro s hs
    obtain rfl := List.eq_of_mem_replicate hs
    refine ⟨?_, ?_, rfl⟩
    · intro x hx
      obtain rfl := List.eq_of_mem_replicate hx
      exact ⟨.inl ⟨rfl, rfl⟩⟩
    · unfold blank
      rw [sample_val 0 (by norm_num)]
      norm_num
  · intro t ht
    obtain rfl := List.eq_of_mem_replicate ht
    unfold blankOut
    rw [sample_val 0 (by norm_num)]
    norm_num
  · refine ⟨⟨blank, by simp, rfl⟩, ?_, ?_, ?_⟩
    · intro t ht
      obtain rfl := List.eq_of_mem_replicate ht
      exact ⟨blank, by simp, rfl⟩
    · intro s hs
      obtain rfl := List.eq_of_mem_replicate hs
      exact fun h => absurd rfl h
    · intro t
      rw [sample_val 0 (by norm_num)]
      have h0 : ∀ (l : List Nat), (∀ x ∈ l, x = 0) → l.sum = 0 := fun l h => List.sum_eq_zero h
      rw [h0, h0]
      · simp
      · intro x hx
        obtain ⟨s, hs, rfl⟩ := List.mem_map.mp hx
        obtain rfl := List.eq_of_mem_replicate (List.mem_filter.mp hs).1
        exact sample_val 0 (by norm_num)
      · intro x hx
        obtain ⟨s, hs, rfl⟩ := List.mem_map.mp hx
        obtain rfl := List.eq_of_mem_replicate (List.mem_filter.mp hs).1
        exact sample_val 0 (by norm_num)

theorem order_big : 2 ^ 70 < ScalarRepr.order (ZMod Bls.r) := by
  show 2 ^ 70 < Bls.r
  unfold Bls.r
  norm_num

/-- a tree with one record of amount 7 and the note that turns it into a record of amount 5 with a fee of 2: made and accepted
(C84); what it says of the tree (C83) -/
example : ∃ (t : Merkle.Tree) (root : ZMod Bls.r) (path : List (MTNode (ZMod Bls.r))) (par : CS (ZMod Bls.r)) (pre : XfrPre (ZMod Bls.r) (ZMod 101))
    (note : XfrNote secq256k1 (ZMod Bls.r) (ZMod 101) (Nat → ZMod Bls.r) (ZMod secq256k1.r) (List (ZMod secq256k1.r))),
    Merkle.runTree sampleCodec (treeHash Rescue.blsParams) [.add (leafHash Rescue.blsParams (0 : Nat) (xfrCom Rescue.blsParams)), .commit] = some t ∧
    t.getRoot sampleCodec = some root ∧
    anonX.initXfr Rescue.blsParams (tyOf 9) [xfrIn path root] [xfrOut 5] 2 xfrKp = .ok pre ∧
    anonX.finishXfr Rescue.blsParams xfrV foldX foldM true secpOrderBytes (tyOf 9) par pre () [(100, 1), (200, 2), (300, 3)] 99 = .ok note ∧
    xfrFixed.verifyNote foldX par note root () = .ok () ∧ xfrFixed.batchVerify foldX [par, par] [note, note] [root, root] [(), ()] = true ∧
    ∃ pk sk spent created, Honours Rescue.blsParams [xfrCom Rescue.blsParams] pk sk spent created (9 : Nat) note.body ∨
      ∃ s ∈ spent, (spendBreak Rescue.blsParams [xfrCom Rescue.blsParams] pk s).Valid (treeHash Rescue.blsParams) := by
  obtain ⟨comm, hh⟩ := sampleFold_honest
  have hp := goodBls
  generalize Rescue.blsParams = p at hp hh
  obtain ⟨t, q, ht, hroot, hlen, hpath, hcur, hcap⟩ := oneTree p (xfrCom p)
  obtain ⟨vars, cs, hb⟩ := blank_circuit p hp comm hh 0 0
  have hb' := hb
  rw [show ((9 : Nat) : ZMod Bls.r) = anonX.asScalar (tyOf 9) from (tyOf_scalar 9).symm] at hb'
  obtain ⟨pre, note, h1, h2, h3, h4, h5, -⟩ := C84_transfer_complete p anonX hp (le_of_lt (lt_trans (by norm_num) order_big)) true secq_fold
    (by decide) secpOrderBytes secpOrder_ok.1 xfrV xfrFixed foldX foldM cs (sampleFold comm) hh.consistent _ _ _ _ _ (tyOf 9) vars cs hb'
    (xfr_completes cs) [xfrIn (q.nodes.map mtNode) q.root] [xfrOut 5] 2 xfrKp xfr_co (by decide) xfr_key
    ⟨by simp, by simp, by simp [xfrIn, xfrKp], by
      intro t ht
      have : t = tyOf 9 := by
        obtain ⟨r, hr, rfl⟩ := ht
        simp only [List.cons_append, List.nil_append, List.mem_cons, List.not_mem_nil, or_false] at hr
        rcases hr with rfl | rfl <;> rfl
      subst this
      rfl, by simp, by simp [xfrOut]⟩ q.root
    (by
      intro i hi
      obtain rfl := List.mem_singleton.mp hi
      refine ⟨rfl, ?_, xfrIn_root p _ _ hpath⟩
      intro n hn
      obtain ⟨m, -, rfl⟩ := List.mem_map.mp hn
      exact goodNode_mtNode m) ⟨_, List.mem_singleton.mpr rfl, rfl⟩ (by
      intro i hi hne
      obtain rfl := List.mem_singleton.mp hi
      exact absurd rfl hne) (by
      intro o ho
      obtain rfl := List.mem_singleton.mp ho
      exact ⟨_, List.mem_singleton.mpr rfl, rfl⟩) (by
      intro a ha b hb _
      obtain rfl := List.mem_singleton.mp ha
      obtain rfl := List.mem_singleton.mp hb
      rfl) (by simp [blank, xfrIn, info, hlen]) (by simp) () (foldM_complete _ _) [(100, 1), (200, 2), (300, 3)] rfl 99
  refine ⟨t, q.root, q.nodes.map mtNode, cs, pre, note, ht, hroot, h1, h2, h3, (C83_batch_iff ..).mpr ⟨?_, ?_⟩, ?_⟩
  · intro i root n e1 e2
    have hr := (verifyNote_ok h3).1
    rcases i with _ | _ | i <;> simp_all
  · intro i par n root h e0 e1 e2 e3
    rcases i with _ | _ | i <;> simp_all
  have hone : note.proof 1 = 1 := xfr_one _ _ _ h3
  have := order_big
  obtain ⟨-, ch, -, -, hres⟩ := C83_transfer_note_sound_partial p hp xfrFixed foldX cs true secq_fold secpOrderBytes secpOrder_ok.1 secpOrder_ok.2.1
    (sampleFold comm) _ _ (by
      intro s hs
      obtain rfl := List.eq_of_mem_replicate hs
      simp [blank]) _ _ _ _ (by simp; omega) (by simp; omega) vars cs hb id (xfr_knows cs) note q.root () h3 hone (by rw [h4]; simp) (by rw [h5]; simp)
    sampleCodec _ hcap [xfrCom p] hcur t ht hroot
  exact ⟨_, _, _, _, hres⟩

/-- C83, the same record twice: seven becomes twelve and a fee of two -/
example : ∃ (root : ZMod Bls.r) (path : List (MTNode (ZMod Bls.r))) (par : CS (ZMod Bls.r)) (pre : XfrPre (ZMod Bls.r) (ZMod 101))
    (note : XfrNote secq256k1 (ZMod Bls.r) (ZMod 101) (Nat → ZMod Bls.r) (ZMod secq256k1.r) (List (ZMod secq256k1.r))) (nul : ZMod Bls.r),
    anonX.initXfr Rescue.blsParams (tyOf 9) [xfrIn path root, xfrIn path root] [xfrOut 12] 2 xfrKp = .ok pre ∧
    anonX.finishXfr Rescue.blsParams xfrV foldX foldM true secpOrderBytes (tyOf 9) par pre () [(100, 1), (200, 2), (300, 3)] 99 = .ok note ∧
    xfrFixed.verifyNote foldX par note root () = .ok () ∧ note.body.inputs = [nul, nul] ∧
    note.body.outputs = [commit Rescue.blsParams (anonX.words 33) 10 ((12 : UInt64).toNat : ZMod Bls.r) (anonX.asScalar (tyOf 9))] := by
  obtain ⟨comm, hh⟩ := sampleFold_honest
  have hp := goodBls
  generalize Rescue.blsParams = p at hp hh
  obtain ⟨t, q, ht, hroot, hlen, hpath, hcur, hcap⟩ := oneTree p (xfrCom p)
  obtain ⟨vars, cs, hb⟩ := blank_circuit p hp comm hh 1 0
  rw [show ((9 : Nat) : ZMod Bls.r) = anonX.asScalar (tyOf 9) from (tyOf_scalar 9).symm] at hb
  obtain ⟨pre, note, nul, h⟩ := C83_same_record_twice p anonX hp (le_of_lt (lt_trans (by norm_num) order_big)) true secq_fold
    (by decide) secpOrderBytes secpOrder_ok.1 xfrV xfrFixed foldX foldM cs (sampleFold comm) hh.consistent _ _ _ _ _ (tyOf 9) vars cs hb
    (xfr_completes cs) (xfrIn (q.nodes.map mtNode) q.root) (xfrOut 12) 2 xfrKp xfr_co (by decide) xfr_key rfl rfl rfl _ rfl rfl rfl
    ⟨by
      intro n hn
      obtain ⟨m, -, rfl⟩ := List.mem_map.mp hn
      exact goodNode_mtNode m, xfrIn_root p _ _ hpath⟩ (by simp [blank, hlen, List.replicate]) (by simp) () (foldM_complete _ _) [(100, 1), (200, 2), (300, 3)] rfl 99
  exact ⟨_, _, _, pre, note, nul, h⟩

/-- a payer of amount `a` and type 9 with a path of its own -/
def ownPayer (a : Nat) : Payer (ZMod Bls.r) := ⟨0, (a : ZMod Bls.r), ((9 : Nat) : ZMod Bls.r), 0, List.replicate 20 ⟨0, 0, 1, 0⟩⟩

theorem ownPayer_good (p : Rescue.Params (ZMod Bls.r)) (pk : PK (ZMod Bls.r)) (a : Nat) (ha : a < 2 ^ 64) :
    GoodPayer p pk (payerRoot p pk (ownPayer a)) (ownPayer a) := by
  refine ⟨?_, ?_, rfl⟩
  · intro x hx
    obtain rfl := List.eq_of_mem_replicate hx
    exact ⟨.inl ⟨rfl, rfl⟩⟩
  · unfold ownPayer
    rw [sample_val a (by omega)]
    exact ha

/-- C83, the constant one: a record of amount 1 pays for one of amount 1000, without a fee -/
example : ∃ (par : CS (ZMod Bls.r)) (root : ZMod Bls.r)
    (note : XfrNote secq256k1 (ZMod Bls.r) (ZMod 101) (Nat → ZMod Bls.r) (ZMod secq256k1.r) (List (ZMod secq256k1.r))),
    xfrE.verifyNote foldX par note root () = .ok () ∧
    note.body = ⟨[nullify Rescue.blsParams (pkWords 5 7) (skWords 3) 0 ((1 : Nat) : ZMod Bls.r) ((9 : Nat) : ZMod Bls.r)],
      [commit Rescue.blsParams (1, 2, 3) 8 ((1000 : Nat) : ZMod Bls.r) ((9 : Nat) : ZMod Bls.r)], root, 0, 0, []⟩ := by
  obtain ⟨comm, hh⟩ := sampleFold_honest
  have hp := goodBls
  generalize Rescue.blsParams = p at hp hh
  obtain ⟨vars, cs, hb⟩ := blank_circuit p hp comm hh 0 0
  obtain ⟨note, h1, h2⟩ := C83_unsound (K := ZMod 101) p hp xfrE foldX foldM cs true secq_fold (by decide) secpOrderBytes secpOrder_ok.1
    (sampleFold comm) hh.consistent [ownPayer 1] _ [⟨((1000 : Nat) : ZMod Bls.r), 8, ((9 : Nat) : ZMod Bls.r), (1, 2, 3)⟩] _ _ _ _ _
    (payerRoot p (pkWords 5 7) (ownPayer 1)) vars cs hb (xfr_proves cs) ⟨5, 7, 3⟩
    ⟨(by decide +kernel : 5 < secq256k1.r), (by decide +kernel : 7 < secq256k1.r), (by decide +kernel : 3 < secq256k1.r),
      (by decide +kernel : 3 < ofLE secpOrderBytes)⟩ () (foldM_complete _ _) 0 0 [] (by simp) (by simp)
    (by
      intro s hs
      obtain rfl := List.mem_singleton.mp hs
      exact ownPayer_good p _ 1 (by norm_num)) (by
      intro t ht
      obtain rfl := List.mem_singleton.mp ht
      simp only []
      rw [sample_val 1000 (by norm_num)]
      norm_num) (by simp [ownPayer]) (by simp) (by simp [ownPayer, blank]) (by simp)
  exact ⟨cs, _, note, h1, h2⟩

/-- C83, counts: a tree with one record that is never spent, and a note made with parameters for one input and two outputs, with
two nullifiers and one output of amount 8 that no record of the tree pays for; the fee type has scalar 0, as in the code -/
example : ∃ (t : Merkle.Tree) (par : CS (ZMod Bls.r)) (root R : ZMod Bls.r)
    (note : XfrNote secq256k1 (ZMod Bls.r) (ZMod 101) (Nat → ZMod Bls.r) (ZMod secq256k1.r) (List (ZMod secq256k1.r))),
    Merkle.runTree sampleCodec (treeHash Rescue.blsParams) [.add (leafHash Rescue.blsParams (0 : Nat) (xfrCom Rescue.blsParams)), .commit] = some t ∧
    t.getRoot sampleCodec = some root ∧ xfrFixed.verifyNote foldX par note root () = .ok () ∧
    note.body = ⟨[nullify Rescue.blsParams (pkWords 5 7) (skWords 3) 0 ((10 : Nat) : ZMod Bls.r) 0, R],
      [commit Rescue.blsParams (1, 2, 3) 8 ((8 : Nat) : ZMod Bls.r) 0], root, 0, 2, []⟩ := by
  obtain ⟨comm, hh⟩ := sampleFold_honest
  have hp := goodBls
  generalize Rescue.blsParams = p at hp hh
  obtain ⟨t, q, ht, hroot, hlen, hpath, hcur, hcap⟩ := oneTree p (xfrCom p)
  set s : Payer (ZMod Bls.r) := ⟨0, ((10 : Nat) : ZMod Bls.r), 0, 0, List.replicate 20 ⟨0, 0, 1, 0⟩⟩ with hs
  set r : Payee (ZMod Bls.r) := ⟨((8 : Nat) : ZMod Bls.r), 8, 0, (1, 2, 3)⟩ with hr
  have e10 := sample_val 10 (by norm_num)
  have e8 := sample_val 8 (by norm_num)
  have e2 := sample_val 2 (by norm_num)
  have e0 : ScalarRepr.val (0 : ZMod Bls.r) = 0 := by
    have := sample_val 0 (by norm_num)
    rwa [Nat.cast_zero] at this
  have hgood : ∀ x ∈ [s], GoodPayer p (pkWords 5 7) (payerRoot p (pkWords 5 7) s) x := by
    intro x hx
    obtain rfl := List.mem_singleton.mp hx
    refine ⟨?_, by simp only [hs, e10]; norm_num, rfl⟩
    intro n hn
    obtain rfl := List.eq_of_mem_replicate hn
    exact ⟨.inl ⟨rfl, rfl⟩⟩
  have hamt : ∀ b, ∀ x ∈ [⟨0, b, 0, (0, 0, 0)⟩, r], ScalarRepr.val x.amount < 2 ^ 64 := by
    intro b x hx
    simp only [List.mem_cons, List.not_mem_nil, or_false] at hx
    rcases hx with rfl | rfl
    · simp only [e0]; norm_num
    · simp only [hr, e8]; norm_num
  have hbal : ∀ b, Balanced [s] [⟨0, b, 0, (0, 0, 0)⟩, r] 0 (((2 : UInt32).toNat : Nat) : ZMod Bls.r) := by
    intro b
    refine ⟨⟨s, by simp, rfl⟩, ?_, ?_, ?_⟩
    · intro x hx
      simp only [List.mem_cons, List.not_mem_nil, or_false] at hx
      rcases hx with rfl | rfl <;> exact ⟨s, by simp, rfl⟩
    · intro x hx hne
      obtain rfl := List.mem_singleton.mp hx
      exact absurd rfl hne
    · intro t
      have e2' : ScalarRepr.val ((((2 : UInt32).toNat : Nat)) : ZMod Bls.r) = 2 := e2
      rw [e2']
      by_cases h : t = 0
      · subst h
        rw [Nat.cast_ofNat] at e10 e8
        simp [hs, hr, e10, e8, e0]
      · simp [hs, hr, h, eq_comm]
  obtain ⟨vars, cs, hb⟩ := xfr_circuit p hp comm hh [s] [⟨0, 0, 0, (0, 0, 0)⟩, r] 0 _ _ (by simp) (by simp) hgood (hamt 0) (hbal 0)
  obtain ⟨root, note, h1, h2, h3⟩ := C83_counts_unchecked (K := ZMod 101) p hp xfrFixed foldX foldM cs true secq_fold (by decide) secpOrderBytes
    secpOrder_ok.1 (sampleFold comm) hh.consistent [s] [s] [r] _ _ _ _ 0 (payerRoot p (pkWords 5 7) s) vars cs hb
    (by
      intro tr pubs w g1 g2 g3
      exact ⟨w, by simp only [xfrFixed, decide_eq_true_eq]; exact ⟨g3, g1, g2⟩⟩) ⟨5, 7, 3⟩
    ⟨(by decide +kernel : 5 < secq256k1.r), (by decide +kernel : 7 < secq256k1.r), (by decide +kernel : 3 < secq256k1.r),
      (by decide +kernel : 3 < ofLE secpOrderBytes)⟩ () (foldM_complete _ _) 2 0 [] (by simp) hgood
    (fun x hx => hamt 0 x (by simp only [List.mem_singleton] at hx; simp [hx])) rfl rfl hbal sampleCodec _ hcap
    (by rw [hcur]; simp [leavesOf]) (by rw [hcur]; simp [leavesOf]) t ht
  exact ⟨t, cs, root, _, note, ht, h1, h2, h3⟩

/-- C84: records of another key, and totals that do not match, are refused -/
example (p : Rescue.Params (ZMod Bls.r)) (path root) :
    anonX.initXfr p (tyOf 9) [xfrIn path root] [xfrOut 5] 2 ⟨3, 22⟩ = .err ∧
    anonX.initXfr p (tyOf 9) [xfrIn path root] [xfrOut 6] 2 xfrKp = .err ∧
    anonX.initXfr p (tyOf 9) [xfrIn path root] [xfrIn path root] 0 xfrKp = .err := by
  refine ⟨C84_init_rejects p anonX _ _ _ _ _ xfr_co (by decide) fun h => ?_, C84_init_rejects p anonX _ _ _ _ _ xfr_co (by decide) fun h => ?_,
    C84_init_rejects p anonX _ _ _ _ _ xfr_co (by decide) fun h => ?_⟩
  · have := (h.own _ (List.mem_singleton.mpr rfl)).2
    revert this
    show (21 : ZMod 101) = 22 → False
    decide
  · have := h.totals (tyOf 9) ⟨xfrOut 6, by simp, rfl⟩
    revert this
    show (7 + 0 = 6 + 0 + 2) → False
    decide
  · have := h.memos _ (List.mem_singleton.mpr rfl)
    simp [xfrIn] at this

/-- C84: the totals of the first example, all amounts positive -/
example (path : List (MTNode (ZMod Bls.r))) (root : ZMod Bls.r) : (∀ t, (∃ r ∈ [xfrIn path root] ++ [xfrOut 5], r.ty = t) →
      heldTotal t ([xfrIn path root].map (·.held)) = heldTotal t ([xfrOut 5].map (·.held)) + if t = tyOf 9 then (2 : UInt32).toNat else 0) ∧
    ∀ r ∈ [xfrIn path root] ++ [xfrOut 5], 0 < r.amount.toNat := by
  constructor
  · intro t ht
    have : t = tyOf 9 := by
      obtain ⟨r, hr, rfl⟩ := ht
      simp only [List.cons_append, List.nil_append, List.mem_cons, List.not_mem_nil, or_false] at hr
      rcases hr with rfl | rfl <;> rfl
    subst this
    rfl
  · intro r hr
    simp only [List.cons_append, List.nil_append, List.mem_cons, List.not_mem_nil, or_false] at hr
    rcases hr with rfl | rfl
    · exact (by decide : 0 < (7 : UInt64).toNat)
    · exact (by decide : 0 < (5 : UInt64).toNat)

/-- C83: a note without folding commitments makes the verifier panic -/
example (par : CS (ZMod Bls.r)) (root : ZMod Bls.r) (pf : Nat → ZMod Bls.r) (d : DelegatedSchnorr.Proof (ZMod secq256k1.r) (ZMod secq256k1.r) (ZMod Bls.r)) :
    xfrFixed.verifyNote (K := ZMod 101) foldX par ⟨⟨[5], [6], root, 0, 2, []⟩, pf, ⟨d, [], []⟩⟩ root () = .panic :=
  (C83_panics_iff ..).mpr ⟨rfl, .inl (by simp)⟩

end Verif.Anon
