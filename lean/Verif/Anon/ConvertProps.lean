import Verif.Anon.ConvertSound
import Verif.Anon.FoldingProps
import Verif.Algebra.RistrettoOrder

/-!
Properties C73 to C76: the circuits that convert between ordinary and anonymous records prove what their notes claim.

The circuits of ar_to_abar.rs and bar_to_abar.rs do not force variable zero to be zero.  What a commitment made with another
value is good for is part of the statements: whoever opens it has a collision.
-/

namespace Verif.Anon

open Verif.Plonk Verif.Plonk.Spec Verif.SimFr Verif.SimFr.Spec Verif.StateComm Verif.Anon.Spec

section
variable {F : Type} [Field F] (p : Rescue.Params F)

/-- the outer hash input of a commitment with padding word `z` -/
def outerZ (z : F) (x : CommitIn F) : Rescue.State F :=
  (hash4 p x.blind x.amount x.ty x.pk.1, x.pk.2.1, x.pk.2.2, z)

/-- the collision in a commitment with padding word `z` and a proper one -/
def openCollision [DecidableEq F] (z : F) (x y : CommitIn F) : Rescue.State F × Rescue.State F :=
  if outerZ p z x = y.outer p then (x.inner, y.inner) else (outerZ p z x, y.outer p)

/-- a commitment made with padding word `z` opens only to what it was made from, with `z = 0` -/
theorem commitZ_opens [DecidableEq F] (z : F) (x y : CommitIn F) (h : y.eval p = commitZ p z x.pk x.blind x.amount x.ty) :
    (z = 0 ∧ y = x) ∨ Collides p (openCollision p z x y).1 (openCollision p z x y).2 := by
  unfold openCollision
  split
  · rename_i ho
    by_cases hi : x.inner = y.inner
    · left
      obtain ⟨⟨a, b, c⟩, d, e, f⟩ := x
      obtain ⟨⟨a', b', c'⟩, d', e', f'⟩ := y
      simp only [outerZ, CommitIn.outer, CommitIn.inner, Prod.mk.injEq] at ho hi
      obtain ⟨rfl, rfl, rfl, rfl⟩ := hi
      obtain ⟨-, rfl, rfl, rfl⟩ := ho
      exact ⟨rfl, rfl⟩
    · have := congrArg Prod.fst ho
      exact .inr ⟨hi, this⟩
  · rename_i ho
    exact .inr ⟨ho, h.symm⟩

/-- the opening a payee is -/
def Payee.opening (t : Payee F) : CommitIn F := ⟨t.pk, t.blind, t.amount, t.ty⟩

end

/-! ### From a non-confidential record -/

section
variable {F : Type} [Field F] [DecidableEq F] [ScalarRepr F] (p : Rescue.Params F)

/-- C73 (soundness).  An assignment that satisfies the circuit for the public amount, asset type and commitment: whoever
opens the commitment, opens it to that amount and asset type (and to what the assignment holds); otherwise
`openCollision` is a collision of the permutation. -/
theorem C73_ar_to_abar_sound (hp : GoodParams p) (t : Payee F) (vars : PayeeVars) (cs : CS F)
    (hb : buildArToAbar p t CS.new = some (vars, cs)) (amount ty com : F) (w : Nat → F) (hs : Sat cs w [amount, ty, com])
    (y : CommitIn F) (hy : y.eval p = com) :
    (y.amount = amount ∧ y.ty = ty ∧ y = (payeeVal w vars).opening) ∨
      Collides p (openCollision p (w 0) (payeeVal w vars).opening y).1 (openCollision p (w 0) (payeeVal w vars).opening y).2 := by
  obtain ⟨hw, pv, mo, h⟩ := soundP_buildArToAbar p hp t CS.new vars cs WF.new hb
  have hv := h w _ hs
  have hpub : cs.pubVars = pv := by rw [mo.pub]; rfl
  have hl : cs.pubVars.length = 3 := by
    have := congrArg List.length hv
    rw [hpub]
    simpa using this
  have hon := Sat.publics hw hs (by rw [hl]; rfl)
  rw [hpub, hv] at hon
  simp only [List.cons.injEq, and_true] at hon
  obtain ⟨rfl, rfl, hcom⟩ := hon
  rcases commitZ_opens p (w 0) (payeeVal w vars).opening y (by rw [hy, ← hcom]; rfl) with ⟨-, h⟩ | h
  · exact .inl ⟨by rw [h]; rfl, by rw [h]; rfl, h⟩
  · exact .inr h

end

/-! ### What is spent -/

section
variable {F : Type} [Field F] [DecidableEq F] (p : Rescue.Params F)

omit [DecidableEq F] in
/-- the hash input of the root of the tree -/
def topCall (stored : List F) : Rescue.State F :=
  ((Merkle.node (treeHash p) (leavesOf p stored) 19 0).getD 0, (Merkle.node (treeHash p) (leavesOf p stored) 19 1).getD 0,
    (Merkle.node (treeHash p) (leavesOf p stored) 19 2).getD 0, 0)

namespace Spec

/-- evidence against the permutation in a spent record that is not stored: a collision or preimage of zero in the path that
is followed, or, when the path was followed with padding words one, the last call of the permutation and the one that gave
the root (or a preimage of zero, the root of the empty tree) -/
def SpendBreak (stored : List F) (pk : PK F) (s : Spent F) : Prop :=
  (spendBreak p stored pk s).Valid (treeHash p) ∨ Collides p (topCall p stored) (forgedCall p pk s) ∨
    (stored = [] ∧ hashSt p (forgedCall p pk s) = 0)

end Spec

omit [DecidableEq F] in
theorem node_none {H : F → F → F → F} {l : List F} : {d : Nat} → Merkle.node H l d 0 = none → l = []
  | 0, h => by simpa [Merkle.node] using h
  | d + 1, h => by
    unfold Merkle.node at h
    split at h
    · rename_i h0 _ _
      exact node_none (d := d) (by simpa using h0)
    · cases h

omit [DecidableEq F] in
/-- a path followed with padding words one does not lead to the root of a tree -/
theorem forged_breaks (c : Merkle.Codec F) (ops : List (Merkle.Op F)) (hcap : Merkle.adds ops ≤ 3 ^ 20)
    (stored : List F) (hst : (Merkle.Spec.run ops).cur = leavesOf p stored) (root : F) (st : Rescue.State F)
    (h1 : st.2.2.2 = 1) (hr : hashSt p st = root) :
    ∃ t, Merkle.runTree c (treeHash p) ops = some t ∧ (t.getRoot c = some root →
      Collides p (topCall p stored) st ∨ (stored = [] ∧ hashSt p st = 0)) := by
  obtain ⟨t, ht, hroot⟩ := Merkle.C03_root_is_tree_root c (treeHash p) ops hcap
  refine ⟨t, ht, fun hr' => ?_⟩
  rw [hroot, hst] at hr'
  have hr' := Option.some.inj hr'
  cases hn : Merkle.node (treeHash p) (leavesOf p stored) 20 0 with
  | none =>
    have hn' := node_none hn
    refine .inr ⟨?_, ?_⟩
    · unfold leavesOf at hn'
      simpa using hn'
    · rw [hr, ← hr']
      unfold Merkle.specRoot
      rw [show Merkle.node (treeHash p) (leavesOf p stored) 20 0 = none from hn]
      rfl
  | some x =>
    left
    have hx : x = hashSt p (topCall p stored) := by
      unfold Merkle.node at hn
      split at hn
      · cases hn
      · exact (Option.some.inj hn).symm
    refine ⟨fun e => ?_, ?_⟩
    · have := congrArg (fun s => s.2.2.2) e
      simp only [topCall, h1] at this
      exact zero_ne_one this
    · show hashSt p (topCall p stored) = hashSt p st
      rw [← hx, hr, ← hr']
      unfold Merkle.specRoot
      rw [show Merkle.node (treeHash p) (leavesOf p stored) 20 0 = some x from hn]
      rfl

end

/-! ### To a non-confidential record -/

section
variable {F : Type} [Field F] [DecidableEq F] [ScalarRepr F] (p : Rescue.Params F)

/-- C74 (soundness).  An assignment that satisfies the circuit, with the address folding circuit in it, for the public
nullifier, root, amount and asset type and the verifier's input for the folding: the record it holds has that amount and
asset type, and either the nullifier is that of the record, the record has a Merkle proof for the root and the key scalars
fold to the verifier's input, or all key scalars are zero and following the path of the record with padding words one
leads to the root. -/
theorem C74_abar_to_ar_sound (hp : GoodParams p) (dbg : Bool) (P : SimFr.Params) (h : FoldOk P F) (modulus : Bytes)
    (hm : modulus.length = 32) (hf : false ∈ modulus.flatMap byteBits) (wit : FoldWitness P F) (s : Payer F) (pk0 : PK F)
    (sk0 : SK F) (vars : AbarVars FoldVars) (cs : CS F)
    (hb : buildAbarToAr p (foldingCircuit p dbg P modulus wit) s pk0 sk0 CS.new = some (vars, cs))
    (nul root amount ty : F) (foldPub : List F) (hl : ([nul, root, amount, ty] ++ foldPub).length = cs.pubVars.length)
    (comm : F) (beta lambda : ZMod P.r) (resps : List (ZMod P.r)) (hv : verifierInput P comm beta lambda resps = some foldPub)
    (w : Nat → F) (hs : Sat cs w ([nul, root, amount, ty] ++ foldPub)) :
    (spentVal w vars.spend.payer).amount = amount ∧ (spentVal w vars.spend.payer).ty = ty ∧
      (spentVal w vars.spend.payer).nodes.length = s.path.length ∧
      ((Redeems p (pkVal w vars.spend.pk) (skVal w vars.spend.sk) (spentVal w vars.spend.payer) nul root ∧
          Folds p P (ofLE modulus) comm beta lambda resps (pkVal w vars.spend.pk) (skVal w vars.spend.sk)
            (foldVal P w vars.fold)) ∨
        (pkVal w vars.spend.pk = (0, 0, 0) ∧
          (forgedCall p (pkVal w vars.spend.pk) (spentVal w vars.spend.payer)).2.2.2 = 1 ∧
          hashSt p (forgedCall p (pkVal w vars.spend.pk) (spentVal w vars.spend.payer)) = root)) := by
  obtain ⟨hw, pv, mo, hr⟩ := soundP_buildAbarToAr p hp h.two _ _
    (fun pk sk => soundP_foldingCircuit p hp dbg P h modulus hm hf wit pk sk) s pk0 sk0 CS.new vars cs WF.new hb
  obtain ⟨fpv, e, ⟨hfold, hz⟩, hlen, c0, c1⟩ := hr w _ hs
  have hpub : cs.pubVars = pv := by rw [mo.pub]; rfl
  have hon := Sat.publics hw hs hl
  rw [hpub, e] at hon
  obtain ⟨h4, hfp⟩ := List.append_inj hon rfl
  simp only [List.cons.injEq, and_true] at h4
  obtain ⟨rfl, rfl, rfl, rfl⟩ := h4
  refine ⟨rfl, rfl, by simpa [spentVal] using hlen, ?_⟩
  rcases hz with h0 | ⟨h0, hpk, -⟩
  · exact .inl ⟨c0 h0, hfold h0 comm beta lambda resps (by rw [hfp, hv])⟩
  · exact .inr ⟨hpk, c1 h0⟩

/-- C74: what is paid out was stored.  In addition the root is that of a tree of the accumulator, after any history, that
stores the commitments `stored`.  Then the record the assignment holds is a stored one, it has the public amount and
asset type, the public nullifier is the one it has at its place, and its key folds to the verifier's input; otherwise the
assignment contains evidence against the permutation. -/
theorem C74_redeems_stored (hp : GoodParams p) (dbg : Bool) (P : SimFr.Params) (h : FoldOk P F) (modulus : Bytes)
    (hm : modulus.length = 32) (hf : false ∈ modulus.flatMap byteBits) (wit : FoldWitness P F) (s : Payer F)
    (hd : s.path.length = 20) (pk0 : PK F)
    (sk0 : SK F) (vars : AbarVars FoldVars) (cs : CS F)
    (hb : buildAbarToAr p (foldingCircuit p dbg P modulus wit) s pk0 sk0 CS.new = some (vars, cs))
    (nul root amount ty : F) (foldPub : List F) (hl : ([nul, root, amount, ty] ++ foldPub).length = cs.pubVars.length)
    (comm : F) (beta lambda : ZMod P.r) (resps : List (ZMod P.r)) (hv : verifierInput P comm beta lambda resps = some foldPub)
    (w : Nat → F) (hs : Sat cs w ([nul, root, amount, ty] ++ foldPub))
    (c : Merkle.Codec F) (ops : List (Merkle.Op F)) (hcap : Merkle.adds ops ≤ 3 ^ 20)
    (stored : List F) (hst : (Merkle.Spec.run ops).cur = leavesOf p stored) :
    ∃ t, Merkle.runTree c (treeHash p) ops = some t ∧ (t.getRoot c = some root →
      (∃ j : Nat, stored[j]? = some (commit p (pkVal w vars.spend.pk) (spentVal w vars.spend.payer).blind amount ty) ∧
        nul = nullify p (pkVal w vars.spend.pk) (skVal w vars.spend.sk) (j : F) amount ty ∧
        Folds p P (ofLE modulus) comm beta lambda resps (pkVal w vars.spend.pk) (skVal w vars.spend.sk)
          (foldVal P w vars.fold)) ∨
      SpendBreak p stored (pkVal w vars.spend.pk) (spentVal w vars.spend.payer)) := by
  obtain ⟨rfl, rfl, hlen, hcase⟩ := C74_abar_to_ar_sound p hp dbg P h modulus hm hf wit s pk0 sk0 vars cs hb nul root amount ty
    foldPub hl comm beta lambda resps hv w hs
  rcases hcase with ⟨hr, hfo⟩ | ⟨-, h1, h2⟩
  · obtain ⟨t, ht, hin⟩ := C68_input_stored p c ops hcap stored hst (pkVal w vars.spend.pk) root
    refine ⟨t, ht, fun hroot => ?_⟩
    rcases hin hroot (spentVal w vars.spend.payer) (hlen.trans hd) hr.proof with ⟨j, hj, hu⟩ | hb
    · exact .inl ⟨j, hj, by rw [← hu]; exact hr.nul, hfo⟩
    · exact .inr (.inl hb)
  · obtain ⟨t, ht, hin⟩ := forged_breaks p c ops hcap stored hst root _ h1 h2
    exact ⟨t, ht, fun hroot => .inr (.inr (hin hroot))⟩

end

/-! ### From a confidential record -/

section
variable {F : Type} [Field F] [DecidableEq F] [ScalarRepr F] (p : Rescue.Params F)

/-- C75 (soundness).  An assignment that satisfies the circuit for the public commitment and the verifier's input for the
inspection: whoever opens the commitment, opens it to an amount of 64 bits and an asset type of 240 bits that the state
commitment of the delegated Schnorr proof contains, and that its responses answer for; otherwise `openCollision` is a
collision of the permutation. -/
theorem C75_bar_to_abar_sound (hp : GoodParams p) (dbg : Bool) (P : SimFr.Params) (h : InspOk P F) (t : Payee F)
    (wit : InspWitness P F) (vars : BarVars F) (cs : CS F) (hb : buildBarToAbar p dbg P t wit CS.new = some (vars, cs))
    (com : F) (input : List F) (hl : (com :: input).length = cs.pubVars.length) (comm : F) (beta lambda : ZMod P.r)
    (resps : List (ZMod P.r)) (hv : inspectInput P comm beta lambda resps = some input) (w : Nat → F)
    (hs : Sat cs w (com :: input)) (y : CommitIn F) (hy : y.eval p = com) :
    (y = (payeeVal w vars.out).opening ∧ y.amount = ((inspVal P w vars.insp).x : F) ∧ y.ty = ((inspVal P w vars.insp).y : F) ∧
        Inspects p P comm beta lambda resps (inspVal P w vars.insp)) ∨
      Collides p (openCollision p (w 0) (payeeVal w vars.out).opening y).1
        (openCollision p (w 0) (payeeVal w vars.out).opening y).2 := by
  obtain ⟨hw, pv, mo, hr⟩ := soundP_buildBarToAbar p hp dbg P h t wit CS.new vars cs WF.new hb
  obtain ⟨com', input', e, hc, hi⟩ := hr w _ hs
  have hpub : cs.pubVars = pv := by rw [mo.pub]; rfl
  have hon := Sat.publics hw hs hl
  rw [hpub, e] at hon
  simp only [List.cons.injEq] at hon
  obtain ⟨rfl, rfl⟩ := hon
  rcases commitZ_opens p (w 0) (payeeVal w vars.out).opening y (by rw [hy, hc]; rfl) with ⟨h0, h⟩ | h
  · obtain ⟨h1, h2, h3⟩ := hi h0
    exact .inl ⟨h, by rw [h]; exact h1, by rw [h]; exact h2, h3 comm beta lambda resps hv⟩
  · exact .inr h

end

/-! ### To a confidential record -/

section
variable {F : Type} [Field F] [DecidableEq F] [ScalarRepr F] (p : Rescue.Params F)

/-- C76 (soundness).  As `C74_abar_to_ar_sound`, for the public nullifier and root and the verifier's inputs for inspection
and folding: the amount and asset type of the record are those in the state commitment of the delegated Schnorr proof, and
its responses answer for them. -/
theorem C76_abar_to_bar_sound (hp : GoodParams p) (dbg : Bool) (P Q : SimFr.Params) (h : FoldOk P F) (hq : InspOk Q F)
    (modulus : Bytes) (hm : modulus.length = 32) (hf : false ∈ modulus.flatMap byteBits) (wit : FoldWitness P F)
    (insp : InspWitness Q F) (s : Payer F) (pk0 : PK F) (sk0 : SK F) (vars : AbarBarVars F FoldVars) (cs : CS F)
    (hb : buildAbarToBar p (foldingCircuit p dbg P modulus wit) dbg Q s pk0 sk0 insp CS.new = some (vars, cs))
    (nul root : F) (input foldPub : List F) (hl : ([nul, root] ++ (input ++ foldPub)).length = cs.pubVars.length)
    (icomm : F) (ibeta ilambda : ZMod Q.r) (iresps : List (ZMod Q.r))
    (hi : inspectInput Q icomm ibeta ilambda iresps = some input)
    (comm : F) (beta lambda : ZMod P.r) (resps : List (ZMod P.r)) (hv : verifierInput P comm beta lambda resps = some foldPub)
    (w : Nat → F) (hs : Sat cs w ([nul, root] ++ (input ++ foldPub))) :
    (spentVal w vars.spend.payer).nodes.length = s.path.length ∧
      ((Redeems p (pkVal w vars.spend.pk) (skVal w vars.spend.sk) (spentVal w vars.spend.payer) nul root ∧
          (spentVal w vars.spend.payer).amount = ((inspVal Q w vars.insp).x : F) ∧
          (spentVal w vars.spend.payer).ty = ((inspVal Q w vars.insp).y : F) ∧
          Inspects p Q icomm ibeta ilambda iresps (inspVal Q w vars.insp) ∧
          Folds p P (ofLE modulus) comm beta lambda resps (pkVal w vars.spend.pk) (skVal w vars.spend.sk)
            (foldVal P w vars.fold)) ∨
        (pkVal w vars.spend.pk = (0, 0, 0) ∧
          (forgedCall p (pkVal w vars.spend.pk) (spentVal w vars.spend.payer)).2.2.2 = 1 ∧
          hashSt p (forgedCall p (pkVal w vars.spend.pk) (spentVal w vars.spend.payer)) = root)) := by
  obtain ⟨hw, pv, mo, hr⟩ := soundP_buildAbarToBar p hp _ _
    (fun pk sk => soundP_foldingCircuit p hp dbg P h modulus hm hf wit pk sk) dbg Q hq s pk0 sk0 insp CS.new vars cs WF.new hb
  obtain ⟨input', fpv, e, hil, ⟨hfold, hz⟩, hlen, c0, c1⟩ := hr w _ hs
  have hpub : cs.pubVars = pv := by rw [mo.pub]; rfl
  have hon := Sat.publics hw hs hl
  rw [hpub, e] at hon
  obtain ⟨h2, hon⟩ := List.append_inj hon rfl
  have hlin : input.length = 1 + 4 * Q.limbs := by
    unfold inspectInput at hi
    obtain ⟨z, -, hz⟩ := Option.bind_eq_some_iff.mp hi
    have hz := Option.some.inj hz
    have hlen : ∀ k : ZMod Q.r, (simOf Q k : Sim F).limbs.length = Q.limbs := fun k => ofBig_limbs_length Q _
    rw [← hz]
    simp only [List.length_append, hlen, List.length_singleton]
    omega
  obtain ⟨h3, hfp⟩ := List.append_inj hon (hil.trans hlin.symm)
  subst h3
  simp only [List.cons.injEq, and_true] at h2
  obtain ⟨rfl, rfl⟩ := h2
  refine ⟨by simpa [spentVal] using hlen, ?_⟩
  rcases hz with h0 | ⟨h0, hpk, -⟩
  · obtain ⟨r1, r2, r3, r4⟩ := c0 h0
    exact .inl ⟨r1, r2, r3, r4 _ _ _ _ hi, hfold h0 comm beta lambda resps (by rw [hfp, hv])⟩
  · exact .inr ⟨hpk, c1 h0⟩

/-- C76: what goes into the new record was stored.  In addition the root is that of a tree of the accumulator, after any
history, that stores the commitments `stored`.  Then the record the assignment holds is a stored one, the state commitment contains
its amount and asset type, the public nullifier is the one it has at its place, and its key folds to the verifier's input;
otherwise the assignment contains evidence against the permutation. -/
theorem C76_redeems_stored (hp : GoodParams p) (dbg : Bool) (P Q : SimFr.Params) (h : FoldOk P F) (hq : InspOk Q F)
    (modulus : Bytes) (hm : modulus.length = 32) (hf : false ∈ modulus.flatMap byteBits) (wit : FoldWitness P F)
    (insp : InspWitness Q F) (s : Payer F) (hd : s.path.length = 20) (pk0 : PK F) (sk0 : SK F)
    (vars : AbarBarVars F FoldVars) (cs : CS F)
    (hb : buildAbarToBar p (foldingCircuit p dbg P modulus wit) dbg Q s pk0 sk0 insp CS.new = some (vars, cs))
    (nul root : F) (input foldPub : List F) (hl : ([nul, root] ++ (input ++ foldPub)).length = cs.pubVars.length)
    (icomm : F) (ibeta ilambda : ZMod Q.r) (iresps : List (ZMod Q.r))
    (hi : inspectInput Q icomm ibeta ilambda iresps = some input)
    (comm : F) (beta lambda : ZMod P.r) (resps : List (ZMod P.r)) (hv : verifierInput P comm beta lambda resps = some foldPub)
    (w : Nat → F) (hs : Sat cs w ([nul, root] ++ (input ++ foldPub)))
    (c : Merkle.Codec F) (ops : List (Merkle.Op F)) (hcap : Merkle.adds ops ≤ 3 ^ 20)
    (stored : List F) (hst : (Merkle.Spec.run ops).cur = leavesOf p stored) :
    ∃ t, Merkle.runTree c (treeHash p) ops = some t ∧ (t.getRoot c = some root →
      (∃ j : Nat, stored[j]? = some (commit p (pkVal w vars.spend.pk) (spentVal w vars.spend.payer).blind
          ((inspVal Q w vars.insp).x : F) ((inspVal Q w vars.insp).y : F)) ∧
        nul = nullify p (pkVal w vars.spend.pk) (skVal w vars.spend.sk) (j : F) ((inspVal Q w vars.insp).x : F)
          ((inspVal Q w vars.insp).y : F) ∧
        Inspects p Q icomm ibeta ilambda iresps (inspVal Q w vars.insp) ∧
        Folds p P (ofLE modulus) comm beta lambda resps (pkVal w vars.spend.pk) (skVal w vars.spend.sk)
          (foldVal P w vars.fold)) ∨
      SpendBreak p stored (pkVal w vars.spend.pk) (spentVal w vars.spend.payer)) := by
  obtain ⟨hlen, hcase⟩ := C76_abar_to_bar_sound p hp dbg P Q h hq modulus hm hf wit insp s pk0 sk0 vars cs hb nul root
    input foldPub hl icomm ibeta ilambda iresps hi comm beta lambda resps hv w hs
  rcases hcase with ⟨hr, ha, ht, hin, hfo⟩ | ⟨-, h1, h2⟩
  · obtain ⟨t, htr, hst⟩ := C68_input_stored p c ops hcap stored hst (pkVal w vars.spend.pk) root
    refine ⟨t, htr, fun hroot => ?_⟩
    rcases hst hroot (spentVal w vars.spend.payer) (hlen.trans hd) hr.proof with ⟨j, hj, hu⟩ | hb
    · refine .inl ⟨j, ?_, ?_, hin, hfo⟩
      · rw [hj, ha, ht]
      · rw [← hu, ← ha, ← ht]
        exact hr.nul
    · exact .inr (.inl hb)
  · obtain ⟨t, ht, hin⟩ := forged_breaks p c ops hcap stored hst root _ h1 h2
    exact ⟨t, ht, fun hroot => .inr (.inr (hin hroot))⟩

end

/-! ### The link to the delegated Schnorr proof -/

section
variable {F : Type} [Field F] [ScalarRepr F]

/-- the inputs of the permutation when the commitment of the opening is computed -/
def Spec.InspOpening.calls (p : Rescue.Params F) (P : SimFr.Params) (o : InspOpening F) : List (St F) :=
  spongeCalls p (packLimbs P (stateLimbs P [o.x, o.y] [o.a, o.b])) o.r

/-- C75, C76 (link, special soundness).  A prover answers two challenges `beta` for the same state commitment, commitments
and randomizers, each time with responses that the delegated Schnorr verifier accepts and for two values of `lambda` each;
every one of the four runs satisfies a conversion circuit with some opening of the state commitment.  Then two of the
openings give an explicit collision of the permutation, or all four are the same, and the two commitments checked outside
the circuit open to that amount and that asset type, with blinding factors that are computed from the responses. -/
theorem C75_inspection_links {G : Type} [AddCommGroup G] [DecidableEq G] (p : Rescue.Params F) (P : SimFr.Params)
    [Fact P.r.Prime] [Module (ZMod P.r) G] (h : InspOk P F) (g : ChaumPedersen.Gens G)
    (tr : DelegatedSchnorr.Tr (ZMod P.r) G F) (c0 c1 : G) (comm : F) (randomizers : List G)
    (H : Fin 2 → DelegatedSchnorr.Tr (ZMod P.r) G F → ZMod P.r) (responses : Fin 2 → List (ZMod P.r × ZMod P.r))
    (out : Fin 2 → ZMod P.r × ZMod P.r × DelegatedSchnorr.Tr (ZMod P.r) G F)
    (hver : ∀ b, DelegatedSchnorr.verify g (H b) tr [c0, c1] ⟨comm, randomizers, responses b⟩ = .ok (out b))
    (hbeta : (out 0).1 ≠ (out 1).1) (lambda : Fin 2 → Fin 2 → ZMod P.r) (hlam : ∀ b, lambda b 0 ≠ lambda b 1)
    (o : Fin 2 → Fin 2 → InspOpening F)
    (hf : ∀ b l, Inspects p P comm (out b).1 (lambda b l) ((responses b).map (·.1)) (o b l)) :
    (∃ b l, Collide p ((o 0 0).calls p P) ((o b l).calls p P)) ∨
    ((∀ b l, o b l = o 0 0) ∧
      OpensTo g c0 ((o 0 0).x : ZMod P.r) (responses 0)[0]? (responses 1)[0]? (out 0).1 (out 1).1 ∧
      OpensTo g c1 ((o 0 0).y : ZMod P.r) (responses 0)[1]? (responses 1)[1]? (out 0).1 (out 1).1) := by
  by_cases hcol : ∃ b l, Collide p ((o 0 0).calls p P) ((o b l).calls p P)
  · exact .inl hcol
  right
  have hall : ∀ b l, o b l = o 0 0 := by
    intro b l
    obtain ⟨_, _, ⟨bx, by'⟩, ⟨b0, b1⟩, hc, _⟩ := hf 0 0
    obtain ⟨_, _, ⟨dx, dy⟩, ⟨d0, d1⟩, hc', _⟩ := hf b l
    have hT : P.bits * (P.limbs - 1) + P.top ≤ P.bits * P.limbs := by
      have := h.ok.top
      have := h.ok.pos
      obtain ⟨k, hk⟩ : ∃ k, P.limbs = k + 1 := ⟨P.limbs - 1, by omega⟩
      rw [hk, Nat.add_sub_cancel, Nat.mul_succ]
      omega
    have htot := h.total
    have e1 : 2 ^ 64 ≤ 2 ^ (P.bits * P.limbs) := Nat.pow_le_pow_right (by norm_num) (by omega)
    have e2 : 2 ^ 240 ≤ 2 ^ (P.bits * P.limbs) := Nat.pow_le_pow_right (by norm_num) (by omega)
    have e3 : 2 ^ (P.bits * (P.limbs - 1) + P.top) ≤ 2 ^ (P.bits * P.limbs) := Nat.pow_le_pow_right (by norm_num) hT
    have := C65_state_commitment_binding p P ⟨by have := h.ok.top; have := h.ok.top2; omega, by
        by_contra hcon
        have hq := h.field
        have h1 : 2 ^ 256 < 2 ^ (4 * P.bits + 8) := Nat.pow_lt_pow_right (by norm_num) (by omega)
        have h2 := ScalarRepr.order_le (F := F)
        have h3 : (256 : Nat) ^ 32 = 2 ^ 256 := by norm_num
        omega⟩ h.big
      [(o 0 0).x, (o 0 0).y] [(o 0 0).a, (o 0 0).b] [(o b l).x, (o b l).y] [(o b l).a, (o b l).b] (o 0 0).r (o b l).r comm
      rfl rfl (by
        intro v hv
        simp only [List.cons_append, List.nil_append, List.mem_cons, List.not_mem_nil, or_false] at hv
        rcases hv with rfl | rfl | rfl | rfl | rfl | rfl | rfl | rfl
        · exact lt_of_lt_of_le bx e1
        · exact lt_of_lt_of_le by' e2
        · exact lt_of_lt_of_le b0 e3
        · exact lt_of_lt_of_le b1 e3
        · exact lt_of_lt_of_le dx e1
        · exact lt_of_lt_of_le dy e2
        · exact lt_of_lt_of_le d0 e3
        · exact lt_of_lt_of_le d1 e3) hc hc'
    rcases this with ⟨e1, e2, e3⟩ | hc
    · simp only [List.cons.injEq, and_true] at e1 e2
      obtain ⟨e11, e12⟩ := e1
      obtain ⟨e21, e22⟩ := e2
      cases h1 : o b l
      cases h2 : o 0 0
      simp only [h1, h2] at e11 e12 e21 e22 e3
      subst e11 e12 e21 e22 e3
      rfl
    · exact absurd ⟨b, l, hc⟩ hcol
  have hresp : ∀ b, ∃ z0 z1, (responses b).map (·.1) = [z0, z1] ∧
      z0 = (out b).1 * (o 0 0).x + (o 0 0).a ∧ z1 = (out b).1 * (o 0 0).y + (o 0 0).b := by
    intro b
    have hlen : (responses b).length = 2 := by
      have hv := hver b
      by_contra hcon
      rw [DelegatedSchnorr.C65_lengths_panic g (H b) tr _ _ (.inr (by simpa using Ne.symm hcon))] at hv
      cases hv
    obtain ⟨z0, z1, hz⟩ : ∃ z0 z1, (responses b).map (·.1) = [z0, z1] := by
      match hr : responses b, hlen with
      | [a, b], _ => exact ⟨a.1, b.1, rfl⟩
    refine ⟨z0, z1, hz, ?_⟩
    have he : ∀ l, z0 + lambda b l * z1 =
        ((out b).1 * (o 0 0).x + (o 0 0).a) + lambda b l * ((out b).1 * (o 0 0).y + (o 0 0).b) := by
      intro l
      obtain ⟨y0, y1, _, _, _, ⟨g0, g1⟩, he⟩ := hf b l
      rw [hz] at g0 g1
      simp only [List.getElem?_cons_zero, List.getElem?_cons_succ, Option.some.injEq] at g0 g1
      subst g0 g1
      rw [hall b l] at he
      exact he
    have hy : z1 = (out b).1 * (o 0 0).y + (o 0 0).b := by
      have : (lambda b 0 - lambda b 1) * (z1 - ((out b).1 * (o 0 0).y + (o 0 0).b)) = 0 := by
        linear_combination he 0 - he 1
      exact sub_eq_zero.mp ((mul_eq_zero.mp this).resolve_left (sub_ne_zero.mpr (hlam b)))
    refine ⟨?_, hy⟩
    have := he 0
    rw [hy] at this
    exact add_right_cancel this
  have hsp := DelegatedSchnorr.C65_special_sound g (H 0) (H 1) tr [c0, c1] comm randomizers (responses 0) (responses 1)
    (out 0) (out 1) (hver 0) (hver 1) hbeta
  have hd : (out 0).1 - (out 1).1 ≠ 0 := sub_ne_zero.mpr hbeta
  obtain ⟨z0, z1, hz, e0, e1⟩ := hresp 0
  obtain ⟨y0, y1, hy, f0, f1⟩ := hresp 1
  have key : ∀ (j : Nat) (c : G) (v r z y : ZMod P.r), [c0, c1][j]? = some c →
      [z0, z1][j]? = some z → [y0, y1][j]? = some y → z = (out 0).1 * v + r → y = (out 1).1 * v + r →
      OpensTo g c v (responses 0)[j]? (responses 1)[j]? (out 0).1 (out 1).1 := by
    intro j c v r z y hc hjz hjy ez ey
    obtain ⟨s, s', h1, h2, h3⟩ := hsp j c hc
    have g1 : s.1 = z := by
      have : ((responses 0).map (·.1))[j]? = some s.1 := by rw [List.getElem?_map, h1]; rfl
      rw [hz, hjz] at this
      exact (Option.some.inj this).symm
    have g2 : s'.1 = y := by
      have : ((responses 1).map (·.1))[j]? = some s'.1 := by rw [List.getElem?_map, h2]; rfl
      rw [hy, hjy] at this
      exact (Option.some.inj this).symm
    have ev : (DelegatedSchnorr.extract s s' (out 0).1 (out 1).1).1 = v := by
      unfold DelegatedSchnorr.extract
      rw [g1, g2, ez, ey]
      field_simp
      ring
    exact ⟨s, s', h1, h2, by rw [← ev]; exact h3⟩
  exact ⟨hall, key 0 c0 _ _ _ _ rfl rfl rfl e0 f0, key 1 c1 _ _ _ _ rfl rfl rfl e1 f1⟩

/-- C75, C76: whoever knows an opening of a commitment that `C75_inspection_links` opens, knows the same number, or a
relation between the generators, computed from the two openings. -/
theorem C75_opening_binding {K G : Type} [Field K] [AddCommGroup G] [Module K G] (g : ChaumPedersen.Gens G) (c : G) (v v' t : K)
    (s s' : Option (K × K)) (beta beta' : K) (h : OpensTo g c v s s' beta beta') (h' : c = v' • g.B + t • g.Bb) :
    v = v' ∨ ∃ a b, s = some a ∧ s' = some b ∧ v - v' ≠ 0 ∧
      (v - v') • g.B = (t - (DelegatedSchnorr.extract a b beta beta').2) • g.Bb := by
  obtain ⟨a, b, ha, hb, hc⟩ := h
  by_cases hv : v = v'
  · exact .inl hv
  · refine .inr ⟨a, b, ha, hb, sub_ne_zero.mpr hv, ?_⟩
    rw [hc] at h'
    rw [sub_smul, sub_smul, sub_eq_sub_iff_add_eq_add, h']
    abel

end

/-! ### The parameters of the code -/

/-- the parameters of the code meet the assumptions -/
theorem ristretto_insp : InspOk ristretto (ZMod Bls.r) where
  ok := ristretto_ok
  six := rfl
  total := by decide
  le := by decide +kernel
  pos := by decide +kernel
  field := bls_big _ (by decide)
  words := by decide
  two := secq_fold.two
  big := secq_fold.big
  first := by decide
  second := by decide

instance : Fact ristretto.r.Prime := ⟨RistrettoOrder.prime_l⟩

end Verif.Anon
