import Verif.Anon.ConvertUniform

/-!
The hypotheses of C73 to C76 are met over the field, the hash and the parameters of the code.
-/

namespace Verif.Anon

open Verif.Plonk Verif.Plonk.Spec Verif.SimFr Verif.SimFr.Spec Verif.StateComm Verif.Anon.Spec

/-- C73: the circuit of the sample record is satisfied for its public values, and its commitment opens only to these -/
example : ∃ cs w com, Sat cs w [((5 : Nat) : ZMod Bls.r), 9, com] ∧
    ∀ y : CommitIn (ZMod Bls.r), y.eval Rescue.blsParams = com → (y.amount = ((5 : Nat) : ZMod Bls.r) ∧ y.ty = 9) ∨
      ∃ a b, Collides Rescue.blsParams a b := by
  have hp := goodBls
  generalize Rescue.blsParams = p at hp
  obtain ⟨vars, cs, hb, -, hs⟩ := C73_ar_to_abar_complete p hp samplePayee
  refine ⟨cs, cs.value, _, hs, fun y hy => ?_⟩
  rcases C73_ar_to_abar_sound p hp samplePayee vars cs hb _ _ _ cs.value hs y hy with ⟨h1, h2, -⟩ | h
  · exact .inl ⟨h1, h2⟩
  · exact .inr ⟨_, _, h⟩

/-- an honest inspection for the amount 7 and the asset type 9 -/
def sampleInsp (comm : ZMod Bls.r) : InspWitness ristretto (ZMod Bls.r) :=
  ⟨[((7 : Nat), 100), ((9 : Nat), 200)], [2 * (7 : Nat) + 100, 2 * (9 : Nat) + 200], 2, 11, 99, comm⟩

theorem sampleInsp_honest : ∃ comm, (sampleInsp comm).Honest Rescue.blsParams 7 9 := by
  obtain ⟨k, hk⟩ := (C65_state_commitment_total Rescue.blsParams ristretto ⟨by decide, by decide⟩ (by decide) [7, 9]
    ([100, 200].map (ZMod.val (n := ristretto.r))) 99).mpr (by simp)
  exact ⟨k, ⟨by norm_num, (by decide +kernel : 7 < ristretto.r)⟩, ⟨by norm_num, (by decide +kernel : 9 < ristretto.r)⟩,
    100, 200, rfl, rfl, hk⟩

/-- C75: the circuit is satisfied for an honest inspection, and the commitment opens only to what was inspected -/
example : ∃ cs w com icomm input, inspectInput ristretto icomm 2 11 [2 * (7 : Nat) + 100, 2 * (9 : Nat) + 200] = some input ∧
    Sat cs w (com :: input) ∧
    ∀ y : CommitIn (ZMod Bls.r), y.eval Rescue.blsParams = com →
      (∃ o, y.amount = ((o.x : Nat) : ZMod Bls.r) ∧ y.ty = ((o.y : Nat) : ZMod Bls.r) ∧
        Spec.Inspects Rescue.blsParams ristretto icomm 2 11 [2 * (7 : Nat) + 100, 2 * (9 : Nat) + 200] o) ∨
      ∃ a b, Collides Rescue.blsParams a b := by
  obtain ⟨icomm, hh⟩ := sampleInsp_honest
  have hp := goodBls
  generalize Rescue.blsParams = p at hp hh
  obtain ⟨vars, cs, input, hb, hi, hon, hs⟩ := C75_bar_to_abar_complete p hp true ristretto ristretto_insp (sampleInsp icomm)
    7 9 hh 8 samplePk
  refine ⟨cs, cs.value, _, icomm, input, hi, hs, fun y hy => ?_⟩
  rcases C75_bar_to_abar_sound p hp true ristretto ristretto_insp _ _ vars cs hb _ input
    (by rw [← hon]; simp [CS.online]) icomm 2 11 _ hi cs.value hs y hy with ⟨-, h2, h3, h4⟩ | h
  · exact .inl ⟨_, h2, h3, h4⟩
  · exact .inr ⟨_, _, h⟩

/-- a record of amount 7 and type 9 of the folded sample key, under uid 0 -/
def foldPayer (ns : List (Merkle.ProofNode (ZMod Bls.r))) : Payer (ZMod Bls.r) :=
  ⟨(0 : Nat), (7 : Nat), (9 : Nat), 8, ns.map mtNode⟩

/-- its commitment -/
def foldCom (p : Rescue.Params (ZMod Bls.r)) : ZMod Bls.r := commit p (pkWords 5 7) 8 (7 : Nat) (9 : Nat)

/-- a tree that stores the sample record, and its Merkle proof -/
theorem sampleTree (p : Rescue.Params (ZMod Bls.r)) : ∃ t, ∃ q : Merkle.Proof (ZMod Bls.r), Merkle.runTree sampleCodec (treeHash p)
      [.add (leafHash p (0 : Nat) (foldCom p)), .commit] = some t ∧ t.getRoot sampleCodec = some q.root ∧
    payerRoot p (pkWords 5 7) (foldPayer q.nodes) = q.root ∧ (foldPayer q.nodes).path.length = 20 ∧
    (∀ n ∈ (foldPayer q.nodes).path, GoodNode n) ∧
    (Merkle.Spec.run [.add (leafHash p (0 : Nat) (foldCom p)), .commit]).cur = leavesOf p [foldCom p] ∧
    Merkle.adds [.add (leafHash p (0 : Nat) (foldCom p)), .commit] ≤ 3 ^ 20 := by
  set ops : List (Merkle.Op (ZMod Bls.r)) := [.add (leafHash p (0 : Nat) (foldCom p)), .commit] with hops
  have hcur : (Merkle.Spec.run ops).cur = leavesOf p [foldCom p] := by
    rw [hops]
    rfl
  have hcap : Merkle.adds ops ≤ 3 ^ 20 := by
    rw [hops]
    show 1 ≤ 3 ^ 20
    norm_num
  obtain ⟨t, q, ht, hq, hver, hroot, -, hlen⟩ := Merkle.C02_membership_proofs sampleCodec (treeHash p) ops hcap 0
    (leafHash p (0 : Nat) (foldCom p)) (by rw [hcur]; rfl)
  refine ⟨t, q, ht, hroot, ?_, by simpa [foldPayer] using hlen, ?_, hcur, hcap⟩
  · unfold Merkle.verify at hver
    simp only [decide_eq_true_eq] at hver
    rw [← hver]
    unfold payerRoot foldPayer
    simp only [List.foldl_map, C53_native_agrees]
    rfl
  · intro n hn
    obtain ⟨m, -, rfl⟩ := List.mem_map.mp hn
    exact goodNode_mtNode m

/-- C74: a tree with one record, the satisfied circuit that pays it out, and the conclusion of `C74_redeems_stored` -/
example : ∃ (root : ZMod Bls.r) (cs : CS (ZMod Bls.r)) (w : Nat → ZMod Bls.r) (nul comm : ZMod Bls.r) (foldPub : List (ZMod Bls.r)),
    verifierInput secq256k1 comm 2 11 [2 * 5 + 100, 2 * 7 + 200, 2 * 3 + 300] = some foldPub ∧
    Sat cs w ([nul, root, ((7 : Nat) : ZMod Bls.r), ((9 : Nat) : ZMod Bls.r)] ++ foldPub) ∧
    ((∃ pk sk blind o, ∃ j : Nat, [foldCom Rescue.blsParams][j]? = some (commit Rescue.blsParams pk blind (7 : Nat) (9 : Nat)) ∧
        nul = nullify Rescue.blsParams pk sk (j : ZMod Bls.r) (7 : Nat) (9 : Nat) ∧
        Spec.Folds Rescue.blsParams secq256k1 (ofLE secpOrderBytes) comm 2 11 [2 * 5 + 100, 2 * 7 + 200, 2 * 3 + 300] pk sk o) ∨
      ∃ pk s, Spec.SpendBreak Rescue.blsParams [foldCom Rescue.blsParams] pk s) := by
  obtain ⟨comm, hh⟩ := sampleFold_honest
  have hp := goodBls
  generalize Rescue.blsParams = p at hp hh
  obtain ⟨t, q, ht, hroot, hpr, hlen, hgood, hcur, hcap⟩ := sampleTree p
  obtain ⟨vars, cs, foldPub, hb, hv, hon, hs⟩ := C74_abar_to_ar_complete p hp true secq256k1 secq_fold secpOrderBytes
    secpOrder_ok.1 (sampleFold comm) hh (foldPayer q.nodes) q.root hgood hpr
  refine ⟨q.root, cs, cs.value, _, comm, foldPub, hv, hs, ?_⟩
  obtain ⟨t', ht', hc⟩ := C74_redeems_stored p hp true secq256k1 secq_fold secpOrderBytes secpOrder_ok.1 secpOrder_ok.2.1
    (sampleFold comm) (foldPayer q.nodes) hlen _ _ vars cs hb _ q.root _ _ foldPub (by rw [← hon]; simp [CS.online]) comm 2 11 _ hv
    cs.value hs sampleCodec _ hcap [foldCom p] hcur
  rw [ht] at ht'
  obtain rfl := Option.some.inj ht'
  rcases hc hroot with ⟨j, h1, h2, h3⟩ | h
  · exact .inl ⟨_, _, _, _, j, h1, h2, h3⟩
  · exact .inr ⟨_, _, h⟩

/-- C76: a tree with one record, the satisfied circuit, and the conclusion of `C76_redeems_stored` -/
example : ∃ (root : ZMod Bls.r) (cs : CS (ZMod Bls.r)) (w : Nat → ZMod Bls.r) (nul comm icomm : ZMod Bls.r)
    (input foldPub : List (ZMod Bls.r)),
    inspectInput ristretto icomm 2 11 [2 * (7 : Nat) + 100, 2 * (9 : Nat) + 200] = some input ∧
    verifierInput secq256k1 comm 2 11 [2 * 5 + 100, 2 * 7 + 200, 2 * 3 + 300] = some foldPub ∧
    Sat cs w ([nul, root] ++ (input ++ foldPub)) ∧
    ((∃ pk sk blind, ∃ i : Spec.InspOpening (ZMod Bls.r), ∃ j : Nat,
        [foldCom Rescue.blsParams][j]? = some (commit Rescue.blsParams pk blind ((i.x : Nat) : ZMod Bls.r) ((i.y : Nat) : ZMod Bls.r)) ∧
        nul = nullify Rescue.blsParams pk sk (j : ZMod Bls.r) ((i.x : Nat) : ZMod Bls.r) ((i.y : Nat) : ZMod Bls.r) ∧
        Spec.Inspects Rescue.blsParams ristretto icomm 2 11 [2 * (7 : Nat) + 100, 2 * (9 : Nat) + 200] i) ∨
      ∃ pk s, Spec.SpendBreak Rescue.blsParams [foldCom Rescue.blsParams] pk s) := by
  obtain ⟨comm, hh⟩ := sampleFold_honest
  obtain ⟨icomm, hi⟩ := sampleInsp_honest
  have hp := goodBls
  generalize Rescue.blsParams = p at hp hh hi
  obtain ⟨t, q, ht, hroot, hpr, hlen, hgood, hcur, hcap⟩ := sampleTree p
  obtain ⟨vars, cs, input, foldPub, hb, hin, hv, hon, hs⟩ := C76_abar_to_bar_complete p hp true secq256k1 ristretto secq_fold
    ristretto_insp secpOrderBytes secpOrder_ok.1 (sampleFold comm) hh (sampleInsp icomm) 7 9 hi (foldPayer q.nodes) q.root
    rfl rfl hgood hpr
  refine ⟨q.root, cs, cs.value, _, comm, icomm, input, foldPub, hin, hv, hs, ?_⟩
  obtain ⟨t', ht', hc⟩ := C76_redeems_stored p hp true secq256k1 ristretto secq_fold ristretto_insp secpOrderBytes
    secpOrder_ok.1 secpOrder_ok.2.1 (sampleFold comm) (sampleInsp icomm) (foldPayer q.nodes) hlen _ _ vars cs hb _ q.root input
    foldPub (by rw [← hon]; simp [CS.online]) icomm 2 11 _ hin comm 2 11 _ hv cs.value hs sampleCodec _ hcap [foldCom p] hcur
  rw [ht] at ht'
  obtain rfl := Option.some.inj ht'
  rcases hc hroot with ⟨j, h1, h2, h3, -⟩ | h
  · exact .inl ⟨_, _, _, _, j, h1, h2, h3⟩
  · exact .inr ⟨_, _, h⟩

/-- the generators of the example -/
def barGens : ChaumPedersen.Gens (ZMod ristretto.r) := ⟨1, 7⟩

/-- the responses of the example for the challenge `b` -/
def barResponses (b : ZMod ristretto.r) : List (ZMod ristretto.r × ZMod ristretto.r) :=
  [(b * (7 : Nat) + (100 : Nat), b + 1), (b * (9 : Nat) + (200 : Nat), b + 1)]

/-- the hypotheses of `C75_inspection_links` are met over the parameters of the code (with the scalar field itself as the
group) -/
example : ∃ (comm : ZMod Bls.r) (o : Fin 2 → Fin 2 → Spec.InspOpening (ZMod Bls.r))
    (out : Fin 2 → ZMod ristretto.r × ZMod ristretto.r × DelegatedSchnorr.Tr (ZMod ristretto.r) (ZMod ristretto.r) (ZMod Bls.r)),
    (∀ b, DelegatedSchnorr.verify barGens (fun _ => ((b.val + 2 : Nat) : ZMod ristretto.r)) [] [14, 16]
      ⟨comm, [107, 207], barResponses ((b.val + 2 : Nat) : ZMod ristretto.r)⟩ = .ok (out b)) ∧
    (out 0).1 ≠ (out 1).1 ∧ ((1 : Nat) : ZMod ristretto.r) ≠ ((2 : Nat) : ZMod ristretto.r) ∧
    (∀ b l, Spec.Inspects Rescue.blsParams ristretto comm (out b).1 ((l.val + 1 : Nat) : ZMod ristretto.r)
      ((barResponses ((b.val + 2 : Nat) : ZMod ristretto.r)).map (·.1)) (o b l)) := by
  obtain ⟨comm, hk⟩ := (C65_state_commitment_total Rescue.blsParams ristretto ⟨by decide, by decide⟩ (by decide) [7, 9]
    [100, 200] 99).mpr (by simp)
  have hinj : ∀ a b : Nat, a < ristretto.r → b < ristretto.r →
      ((a : Nat) : ZMod ristretto.r) = ((b : Nat) : ZMod ristretto.r) → a = b := by
    intro a b ha hb h
    rw [ZMod.natCast_eq_natCast_iff', Nat.mod_eq_of_lt ha, Nat.mod_eq_of_lt hb] at h
    exact h
  have hr : 10 < ristretto.r := by decide +kernel
  refine ⟨comm, fun _ _ => ⟨7, 9, 100, 200, 99⟩,
    fun b => (((b.val + 2 : Nat) : ZMod ristretto.r), ((b.val + 2 : Nat) : ZMod ristretto.r),
      DelegatedSchnorr.point2 (DelegatedSchnorr.point1 barGens [] [14, 16] comm [107, 207])
        (barResponses ((b.val + 2 : Nat) : ZMod ristretto.r)) ++ [.challenge]), ?_, ?_, ?_, ?_⟩
  · intro b
    refine (DelegatedSchnorr.C65_accepts_iff barGens _ [] [14, 16] ⟨comm, [107, 207], barResponses _⟩
      ⟨rfl, rfl⟩).1 ?_
    intro j c r s hc hr hs
    generalize ((b.val + 2 : Nat) : ZMod ristretto.r) = β at hs ⊢
    unfold barResponses at hs
    match j with
    | 0 | 1 =>
      simp only [List.getElem?_cons_zero, List.getElem?_cons_succ, Option.some.injEq] at hc hr hs
      subst hc hr hs
      simp only [barGens, smul_eq_mul]
      push_cast
      ring
    | j + 2 => simp at hc
  · intro h
    have := hinj _ _ (by simp; omega) (by simp; omega) h
    simp at this
  · intro h
    have := hinj _ _ (by omega) (by omega) h
    omega
  · intro b l
    refine ⟨_, _, ⟨?_, ?_⟩, ⟨?_, ?_⟩, hk, ⟨rfl, rfl⟩, ?_⟩
    · norm_num
    · norm_num
    · norm_num [ristretto]
    · norm_num [ristretto]
    · simp only [barResponses, List.map_cons, List.map_nil]

/-- the circuits made from the default witnesses of setup.rs have the gates of those of honest witnesses -/
example (comm : ZMod Bls.r) (h : (sampleInsp comm).Honest Rescue.blsParams 7 9) :
    Uniform (fun v v' => v.out = v'.out)
      (buildBarToAbar Rescue.blsParams true ristretto ⟨0, 0, 0, samplePk⟩ (InspWitness.default ristretto _))
      (buildBarToAbar Rescue.blsParams true ristretto samplePayee (sampleInsp comm)) :=
  C75_bar_to_abar_uniform _ _ _ ristretto_insp _ _ _ _ (InspWitness.default_consistent _) h.consistent

end Verif.Anon
