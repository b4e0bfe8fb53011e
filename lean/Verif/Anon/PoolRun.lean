import Verif.Anon.Pool
import Verif.Anon.XfrNoteExamples
import Verif.Rescue.Eval

/-!
Runs of the ledger of `Pool.lean` over the field, the hash and the parameters of the code, with the ideal argument system whose proofs
are assignments: a run that meets the hypotheses of C100, and, without the hypothesis on the constant one, a run that pays out more
than was put in.
-/

namespace Verif.Anon

open Verif.Plonk Verif.Plonk.Spec Verif.Xfr Verif.SimFr Verif.SimFr.Spec Verif.StateComm Verif.Anon.Spec

section
variable {P : SimFr.Params} {F K Par Pf G Hs Mp : Type} [Field F] [DecidableEq F] [ScalarRepr F]
variable [Fact P.r.Prime] [AddCommGroup G] [DecidableEq G] [Module (ZMod P.r) G]
variable (p : Rescue.Params F)

/-- a transfer, honest (`u = 1`) or with the constant zero (`u = 0`): the folding proof, an assignment for the circuit of the
parameters, and the values it has for the key -/
theorem xfr_assignment (hp : GoodParams p) (Y : FoldExt P F G Hs Mp) (M : FoldProver P F G Hs Mp) (dbg : Bool)
    (hP : FoldOk P F) (hbits : P.bits ≤ 254) (modulus : Bytes) (hm : modulus.length = 32) (wit' : FoldWitness P F) (hwit : wit'.Consistent)
    (payers payers' : List (Payer F)) (payees payees' : List (Payee F)) (pk' : PK F) (sk' : SK F) (fee' feeType root u : F)
    (vars : XfrVars FoldVars) (cs : CS F)
    (hb : buildMultiXfr p (foldingCircuit p dbg P modulus wit') payers' payees' pk' sk' fee' feeType CS.new = some (vars, cs))
    (key : FoldKey) (hk : key.x < P.r ∧ key.y < P.r ∧ key.s < P.r ∧ key.s < ofLE modulus) (h : Hs)
    (hM : M.Complete Y xfrFoldLabel h key) (fee : UInt32) (hne : payers ≠ []) (hne' : payees ≠ [])
    (hg : ∀ s ∈ payers, GoodPayer p (pkWords key.x key.y) root s)
    (hg' : ∀ t ∈ payees, ScalarRepr.val t.amount < 2 ^ 64) (hmode : XfrMode payers payees feeType (fee.toNat : F) u)
    (hl : payers'.map (fun s => s.path.length) = payers.map (fun s => s.path.length)) (hl' : payees'.length = payees.length) :
    ∃ (inst : FoldInst P F G Mp) (w : Nat → F) (pubs : List F),
      (∀ (E : XfrExt F Par Pf) (par : Par) (pf : Pf) (version : UInt64) (memos : List (AMemo K)),
        E.plonk par (xfrTranscript payers.length payees.length) pubs pf = true →
        E.verifyNote Y par (⟨⟨payers.map (fun s => nullify p (pkWords key.x key.y) (skWords key.s) s.uid s.amount s.ty),
          payees.map (fun t => commit p t.pk t.blind t.amount t.ty), root, version, fee, memos⟩, pf, inst⟩ : XfrNote P F K Pf G Mp)
          root h = .ok ()) ∧
      pubs.length = cs.pubVars.length ∧ Sat cs w pubs ∧ w 1 = u ∧ pkVal w vars.pk = pkWords key.x key.y ∧
      skVal w vars.sk = skWords key.s := by
  obtain ⟨inst, wit, -, c2, c3, c4, c5, c6, c7, c8⟩ := folding_honest p P hP hbits Y M xfrFoldLabel h key hM (ofLE modulus) hk
    [(0, 0), (0, 0), (0, 0)] rfl 0
  obtain ⟨foldPub, hv, hr⟩ := C72_folding_complete p hp dbg P hP modulus hm wit c2
  rw [c3, c4, c5] at hr
  have hstart : ∃ cs0 : CS F, WF cs0 ∧ HSat cs0 ∧ Has cs0 0 0 ∧ Has cs0 1 u ∧ cs0.shape = CS.new.shape := by
    rcases hmode with ⟨rfl, -⟩ | ⟨rfl, -⟩
    · exact ⟨CS.new, WF.new, new_hsat, new_has.1, new_has.2, rfl⟩
    · exact ⟨newWrong, WF.newWrong, newWrong_hsat, ⟨by simp [newWrong, CS.new], by simp [CS.value, newWrong, CS.new]⟩,
        ⟨by simp [newWrong, CS.new], by simp [CS.value, newWrong, CS.new]⟩, rfl⟩
  obtain ⟨cs0, s1, s2, s3, s4, s5⟩ := hstart
  obtain ⟨v, cs', pv, e, hw, hs, mo, hli, hpk, hsk⟩ := runs_buildMultiXfr p hp (foldingCircuit p dbg P modulus wit) payers payees
    (pkWords key.x key.y) (skWords key.s) (fee.toNat : F) feeType u root foldPub (fun cs pkv skv a _ b c => hr cs pkv skv a b c) hne hne' hg
    hg' hmode cs0 s3 s4 s1 s2
  have h0 : cs0.pubVars = [] := (show cs0.shape.pubVars = (CS.new : CS F).shape.pubVars by rw [s5])
  have hon : cs'.online = payers.map (fun s => nullify p (pkWords key.x key.y) (skWords key.s) s.uid s.amount s.ty) ++ [root] ++
      payees.map (fun t => commit p t.pk t.blind t.amount t.ty) ++ [(fee.toNat : F)] ++ foldPub := by
    rw [← hli.map, CS.online, mo.pub, h0]
    rfl
  have huni := C67_transfer_uniform p _ _ (fun pk sk => C72_folding_uniform p dbg P hP modulus wit wit' c2.consistent hwit pk sk) payers
    payers' payees payees' (pkWords key.x key.y) pk' (skWords key.s) sk' (fee.toNat : F) fee' feeType hl.symm hl'.symm cs0 CS.new s5
  rw [e, hb] at huni
  cases huni with
  | some huni =>
    obtain ⟨hvars, hsh⟩ := huni
    simp only at hvars hsh
    subst hvars
    refine ⟨inst, cs'.value, _, fun E par pf version memos hpl => verifyNote_of c6 c7 c8 hv ?_, ?_, Sat.shape hsh.symm hs, (s4.mono s1 mo).2,
      ?_, ?_⟩
    · rw [hon] at hpl
      simpa [xfrPublic] using hpl
    · rw [show cs.pubVars = cs'.pubVars from (show cs.shape.pubVars = cs'.shape.pubVars by rw [hsh])]
      simp [CS.online]
    · unfold pkVal
      rw [hpk.a.2, hpk.b.2, hpk.c.2]
    · unfold skVal
      rw [hsk.a.2, hsk.b.2]

/-- a withdrawal: the folding proof, an assignment for the circuit of the parameters, and the values it has for the key -/
theorem withdraw_assignment {S : Xfr.Types} {Q : SimFr.Params} (hp : GoodParams p) (Y : FoldExt P F G Hs Mp) (M : FoldProver P F G Hs Mp)
    (dbg : Bool) (hP : FoldOk P F) (hbits : P.bits ≤ 254) (modulus : Bytes) (hm : modulus.length = 32) (wit' : FoldWitness P F)
    (hwit : wit'.Consistent) (s' : Payer F) (pk' : PK F) (sk' : SK F) (vars : AbarVars FoldVars) (cs : CS F)
    (hb : buildAbarToAr p (foldingCircuit p dbg P modulus wit') s' pk' sk' CS.new = some (vars, cs))
    (key : FoldKey) (hk : key.x < P.r ∧ key.y < P.r ∧ key.s < P.r ∧ key.s < ofLE modulus) (h : Hs)
    (hM : M.Complete Y abarToArFoldLabel h key) (s : Payer F) (root : F) (hg : ∀ n ∈ s.path, GoodNode n)
    (hr : payerRoot p (pkWords key.x key.y) s = root) (hl : s'.path.length = s.path.length) :
    ∃ (inst : FoldInst P F G Mp) (w : Nat → F) (pubs : List F),
      (∀ (E : ConvExt S Q F Par Pf) (par : Par) (pf : Pf) (a : UInt64) (ty : S.AT) (owner : S.PK),
        s.amount = (a.toNat : F) → s.ty = (E.asNat ty : F) → E.plonk par abarToArLabel pubs pf = true →
        E.verifyAbarToAr Y par ⟨nullify p (pkWords key.x key.y) (skWords key.s) s.uid s.amount s.ty, ⟨.plain a, .plain ty, owner⟩, root, pf,
          inst⟩ root h = .ok ()) ∧
      pubs.length = cs.pubVars.length ∧ Sat cs w pubs ∧ pkVal w vars.spend.pk = pkWords key.x key.y ∧
      skVal w vars.spend.sk = skWords key.s := by
  obtain ⟨inst, wit, -, c2, c3, c4, c5, c6, c7, c8⟩ := folding_honest p P hP hbits Y M abarToArFoldLabel h key hM (ofLE modulus) hk
    [(0, 0), (0, 0), (0, 0)] rfl 0
  obtain ⟨foldPub, hv, hf⟩ := C72_folding_complete p hp dbg P hP modulus hm wit c2
  rw [c3, c4, c5] at hf
  obtain ⟨v, cs', pv, e, hw, hs, mo, hli, hpk, hsk⟩ : ∃ (v : AbarVars FoldVars) (cs' : CS F) (pv : List Nat),
      buildAbarToAr p (foldingCircuit p dbg P modulus wit) s (pkWords key.x key.y) (skWords key.s) CS.new = some (v, cs') ∧ WF cs' ∧ HSat cs' ∧
      Mono CS.new cs' pv ∧ HasList cs' pv ([nullify p (pkWords key.x key.y) (skWords key.s) s.uid s.amount s.ty, root, s.amount, s.ty] ++ foldPub) ∧
      HasPk cs' v.spend.pk (pkWords key.x key.y) ∧ HasSk cs' v.spend.sk (skWords key.s) := by
    refine (?_ : RunsP _ CS.new (fun (v : AbarVars FoldVars) (cs' : CS F) (pv : List Nat) => HasList cs' pv _ ∧ HasPk cs' v.spend.pk _ ∧ HasSk cs' v.spend.sk _)) WF.new new_hsat
    have h0 := (new_has (F := F)).1
    unfold buildAbarToAr
    refine RunsP.bindR (runs_spendOne p hp s _ _ root hg hr _ h0) ?_
    intro v cs1 w0 w1 m1 hv
    adv w0 m1
    refine RunsP.bind (runsP_preparePi _ cs1 hv.nul.1) ?_
    rintro _ cs2 pv - w2 m2 rfl
    adv w1 m2
    refine RunsP.bind (runsP_preparePi _ cs2 hv.rootVar.1) ?_
    rintro _ cs3 pv - w3 m3 rfl
    adv w2 m3
    refine RunsP.bind (runsP_preparePi _ cs3 hv.amount.1) ?_
    rintro _ cs4 pv - w4 m4 rfl
    adv w3 m4
    refine RunsP.bind (runsP_preparePi _ cs4 hv.ty.1) ?_
    rintro _ cs5 pv - w5 m5 rfl
    adv w4 m5
    refine RunsP.bind (hf cs5 _ _ h0 hv.keyVars hv.secretVars) ?_
    intro f cs6 pv _ w6 m6 hpv
    adv w5 m6
    refine RunsP.bindR (runs_pad _) ?_
    intro _ cs7 _ w7 m7 _
    adv w6 m7
    refine RunsP.pure _ _ _ ⟨?_, hv.keyVars, hv.secretVars⟩
    simpa using HasList.append (.cons hv.nul (.cons hv.rootVar (.cons hv.amount (.cons hv.ty .nil)))) hpv
  have hon : cs'.online = [nullify p (pkWords key.x key.y) (skWords key.s) s.uid s.amount s.ty, root, s.amount, s.ty] ++ foldPub := by
    rw [← hli.map, CS.online, mo.pub]
    rfl
  have huni := C74_abar_to_ar_uniform p _ _ (fun pk sk => C72_folding_uniform p dbg P hP modulus wit wit' c2.consistent hwit pk sk) s s'
    (pkWords key.x key.y) pk' (skWords key.s) sk' hl.symm CS.new CS.new rfl
  rw [e, hb] at huni
  cases huni with
  | some huni =>
    obtain ⟨hvars, hsh⟩ := huni
    simp only at hvars hsh
    subst hvars
    refine ⟨inst, cs'.value, _, fun E par pf a ty owner ha hty hpl => ?_, ?_, Sat.shape hsh.symm hs, ?_, ?_⟩
    · rw [hon, ha, hty] at hpl
      unfold ConvExt.verifyAbarToAr FoldInst.input
      simp only [c6, Res.bind_ok, c7, c8, hv, Res.unwrap_some, ne_eq, not_true_eq_false, if_false, ha, hty]
      rw [if_pos hpl]
    · rw [show cs.pubVars = cs'.pubVars from (show cs.shape.pubVars = cs'.shape.pubVars by rw [hsh])]
      simp [CS.online]
    · unfold pkVal
      rw [hpk.a.2, hpk.b.2, hpk.c.2]
    · unfold skVal
      rw [hsk.a.2, hsk.b.2]

end

end Verif.Anon
