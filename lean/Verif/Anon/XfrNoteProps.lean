import Verif.Anon.XfrNote

/-!
C83: what an accepted anonymous transfer note guarantees, from the verifier's answer to the records of the tree.
C84: notes made by `init_anon_xfr_note` and `finish_anon_xfr_note` are accepted.

The PLONK proof system enters through `KnowsXfr` (an extractor that reads a satisfying assignment off every accepted proof) and
`ProvesXfr` (every satisfying assignment has an accepted proof).
-/

namespace Verif.Anon

open Verif.Plonk Verif.Plonk.Spec Verif.SimFr Verif.SimFr.Spec Verif.StateComm Verif.Anon.Spec
open Verif.DelegatedSchnorr (Tr Msg)

/-- the proof system with the parameters `par` is an argument of knowledge for the circuit `cs`, with extractor `X` -/
def KnowsXfr {F Par Pf : Type} [Field F] (E : XfrExt F Par Pf) (par : Par) (cs : CS F) (X : Pf → Nat → F) : Prop :=
  ∀ tr pubs pf, E.plonk par tr pubs pf = true → pubs.length = cs.pubVars.length ∧ Sat cs (X pf) pubs

/-- every satisfying assignment of the circuit has an accepted proof, with any transcript -/
def ProvesXfr {F Par Pf : Type} [Field F] (E : XfrExt F Par Pf) (par : Par) (cs : CS F) : Prop :=
  ∀ tr pubs w, pubs.length = cs.pubVars.length → Sat cs w pubs → ∃ pf, E.plonk par tr pubs pf = true

namespace Spec

/-- The meaning of the body of a transfer over the stored commitments: each nullifier is that of a stored record of the one
key, under its position; each output commitment opens; amounts have 64 bits; and for every asset type the integers balance,
with the public fee paid in the fee type. -/
structure Honours {F K : Type} [Field F] [DecidableEq F] [ScalarRepr F] (p : Rescue.Params F) (stored : List F) (pk : PK F) (sk : SK F)
    (spent : List (Spent F)) (created : List (Payee F)) (feeType : F) (body : XfrBody F K) : Prop where
  inputs : List.Forall₂ (fun nul s => ∃ j : Nat, stored[j]? = some (commit p pk s.blind s.amount s.ty) ∧
    nul = nullify p pk sk (j : F) s.amount s.ty) body.inputs spent
  outputs : body.outputs = created.map (fun t => commit p t.pk t.blind t.amount t.ty)
  inRange : ∀ s ∈ spent, ScalarRepr.val s.amount < 2 ^ 64
  outRange : ∀ t ∈ created, ScalarRepr.val t.amount < 2 ^ 64
  feeIn : ∃ s ∈ spent, s.ty = feeType
  balance : ∀ t, ((spent.filter (fun s => s.ty = t)).map (fun s => ScalarRepr.val s.amount)).sum =
    ((created.filter (fun s => s.ty = t)).map (fun s => ScalarRepr.val s.amount)).sum +
      if t = feeType then body.fee.toNat else 0

end Spec

section
variable {P : SimFr.Params} {F K Par Pf G Hs Mp : Type} [Field F] [DecidableEq F] [ScalarRepr F]
variable [Fact P.r.Prime] [AddCommGroup G] [DecidableEq G] [Module (ZMod P.r) G]
variable (p : Rescue.Params F)

omit [ScalarRepr F] in
/-- what acceptance says -/
theorem verifyNote_ok {E : XfrExt F Par Pf} {Y : FoldExt P F G Hs Mp} {par : Par} {note : XfrNote P F K Pf G Mp} {root : F} {h : Hs}
    (hv : E.verifyNote Y par note root h = .ok ()) :
    root = note.body.root ∧ ∃ ch fold, Y.verify xfrFoldLabel h note.folding = .ok ch ∧ note.folding.input ch = .ok fold ∧
      verifierInput P note.folding.schnorr.comm ch.1 ch.2 (note.folding.schnorr.responses.map (·.1)) = some fold ∧
      E.plonk par (xfrTranscript note.body.inputs.length note.body.outputs.length)
        (xfrPublic note.body.inputs root note.body.outputs note.body.fee ++ fold) note.proof = true := by
  unfold XfrExt.verifyNote at hv
  split at hv
  · cases hv
  rename_i hr
  unfold XfrExt.checkNote XfrExt.verifyProof at hv
  obtain ⟨ch, hch, hv⟩ := Res.bind_eq_ok.mp hv
  obtain ⟨fold, hfold, hv⟩ := Res.bind_eq_ok.mp hv
  split at hv
  · rename_i hpl
    obtain ⟨h3, _, _, _, _, _, hsh⟩ := fold_ok hch
    obtain ⟨l, hi, hl⟩ := fold_input_ok note.folding (by rw [hsh.2]; exact h3) ch
    have := hi
    rw [hfold] at hi
    obtain rfl := Res.ok.inj hi
    exact ⟨not_not.mp hr, ch, fold, hch, hfold, hl, hpl⟩
  · cases hv

omit [ScalarRepr F] in
/-- C83: the owner memos and the version of the root are not looked at; whoever passes a note on may replace them, unless the
hash given to the verifier covers them. -/
theorem C83_memos_ignored (E : XfrExt F Par Pf) (Y : FoldExt P F G Hs Mp) (par : Par) (note : XfrNote P F K Pf G Mp) (root : F) (h : Hs)
    (memos : List (AMemo K)) (version : UInt64) :
    E.verifyNote Y par { note with body := { note.body with memos := memos, version := version } } root h =
      E.verifyNote Y par note root h := rfl

/-- C83: an accepted transfer note, with parameters made for its numbers of inputs and outputs and paths of depth 20, spends
stored records of one key, whose key pair is the one the folding proof is about, and balances; otherwise `spendBreak` is a
collision of the tree hash or a preimage of zero.  Missing, because the code does not have it: the circuit does not fix its
constant one (hypothesis `h1`, see `C83_unsound`), the verifier does not compare the numbers of inputs and outputs with the
parameters (`hn`, `hc`, see `C83_counts_unchecked`), and the proof system has no extractor (C70). -/
theorem C83_transfer_note_sound_partial (hp : GoodParams p) (E : XfrExt F Par Pf) (Y : FoldExt P F G Hs Mp) (par : Par)
    (dbg : Bool) (h : FoldOk P F) (modulus : Bytes) (hm : modulus.length = 32) (hf : false ∈ modulus.flatMap byteBits)
    (wit : FoldWitness P F) (payers : List (Payer F)) (payees : List (Payee F)) (hd : ∀ s ∈ payers, s.path.length = 20)
    (pk0 : PK F) (sk0 : SK F) (fee0 feeType : F) (hi : payers.length * 2 ^ 64 < ScalarRepr.order F)
    (ho : (payees.length + 1) * 2 ^ 64 < ScalarRepr.order F) (vars : XfrVars FoldVars) (cs : CS F)
    (hb : buildMultiXfr p (foldingCircuit p dbg P modulus wit) payers payees pk0 sk0 fee0 feeType CS.new = some (vars, cs))
    (X : Pf → Nat → F) (hX : KnowsXfr E par cs X) (note : XfrNote P F K Pf G Mp) (root : F) (hs : Hs)
    (hacc : E.verifyNote Y par note root hs = .ok ()) (h1 : X note.proof 1 = 1)
    (hn : note.body.inputs.length = payers.length) (hc : note.body.outputs.length = payees.length)
    (c : Merkle.Codec F) (ops : List (Merkle.Op F)) (hcap : Merkle.adds ops ≤ 3 ^ 20) (stored : List F)
    (hst : (Merkle.Spec.run ops).cur = leavesOf p stored) (t : Merkle.Tree)
    (ht : Merkle.runTree c (treeHash p) ops = some t) (hroot : t.getRoot c = some root) :
    root = note.body.root ∧ ∃ ch, Y.verify xfrFoldLabel hs note.folding = .ok ch ∧
      Folds p P (ofLE modulus) note.folding.schnorr.comm ch.1 ch.2 (note.folding.schnorr.responses.map (·.1))
        (pkVal (X note.proof) vars.pk) (skVal (X note.proof) vars.sk) (foldVal P (X note.proof) vars.fold) ∧
      (Honours p stored (pkVal (X note.proof) vars.pk) (skVal (X note.proof) vars.sk) (vars.payers.map (spentVal (X note.proof)))
          (vars.payees.map (payeeVal (X note.proof))) feeType note.body ∨
        ∃ s ∈ vars.payers.map (spentVal (X note.proof)),
          (spendBreak p stored (pkVal (X note.proof) vars.pk) s).Valid (treeHash p)) := by
  obtain ⟨hr, ch, fold, hch, -, hvi, hpl⟩ := verifyNote_ok hacc
  refine ⟨hr, ch, hch, ?_⟩
  obtain ⟨hl, hsat⟩ := hX _ _ _ hpl
  have hfee : ScalarRepr.val ((note.body.fee.toNat : Nat) : F) = note.body.fee.toNat :=
    ScalarRepr.val_cast _ (by
      have := note.body.fee.toNat_lt
      have : 2 ^ 64 ≤ (payees.length + 1) * 2 ^ 64 := Nat.le_mul_of_pos_left _ (by omega)
      omega)
  unfold xfrPublic at hl hsat
  obtain ⟨hfo, hva, e1, -⟩ := C67_transfer_folding_sound_partial p hp dbg P h modulus hm hf wit payers payees pk0 sk0 fee0 feeType hi ho
    vars cs hb note.body.inputs note.body.outputs fold root _ hn hc hl (by
      rw [hfee]
      have := note.body.fee.toNat_lt
      omega) _ ch.1 ch.2 _ hvi (X note.proof) hsat h1
  refine ⟨hfo, ?_⟩
  have hlen : ∀ s ∈ vars.payers.map (spentVal (X note.proof)), s.nodes.length = 20 := by
    intro s hs
    obtain ⟨v, hv, rfl⟩ := List.mem_map.mp hs
    have : v.path.length ∈ payers.map (fun s => s.path.length) := e1 ▸ List.mem_map.mpr ⟨v, hv, rfl⟩
    obtain ⟨s, hs, e⟩ := List.mem_map.mp this
    simp only [spentVal, List.length_map, ← e]
    exact hd s hs
  obtain ⟨t', ht', hin⟩ := C68_spends_stored p c ops hcap stored hst _ _ _ _ _ _ root _ _ hva hlen
  rw [ht] at ht'
  obtain rfl := Option.some.inj ht'
  have hin := hin hroot
  by_cases hbr : ∃ s ∈ vars.payers.map (spentVal (X note.proof)), (spendBreak p stored (pkVal (X note.proof) vars.pk) s).Valid (treeHash p)
  · exact .inr hbr
  · push Not at hbr
    refine .inl ⟨?_, hva.coms, hva.inRange, hva.outRange, hva.feeIn, ?_⟩
    · rw [hva.nuls, List.forall₂_map_left_iff, List.forall₂_same]
      intro s hs
      obtain ⟨j, g1, g2⟩ := (hin s hs).resolve_right (hbr s hs)
      exact ⟨j, g1, by rw [g2]⟩
    · intro ty
      rw [hva.balance ty, hfee]

omit [Fact P.r.Prime] [AddCommGroup G] [DecidableEq G] [Module (ZMod P.r) G] in
/-- C83: when a ledger also checks that the nullifiers of a note are pairwise different, the note spends pairwise different
stored records; otherwise two of the inputs contain the collision `commitCollision`. -/
theorem C83_distinct_records (stored : List F) (pk : PK F) (sk : SK F) (spent : List (Spent F)) (created : List (Payee F)) (feeType : F)
    (body : XfrBody F K) (hh : Honours p stored pk sk spent created feeType body) (hnd : body.inputs.Nodup) :
    (∃ js : List Nat, js.Nodup ∧
      List.Forall₂ (fun j (s : Spent F) => stored[j]? = some (commit p pk s.blind s.amount s.ty)) js spent ∧
      List.Forall₂ (fun nul (q : Nat × Spent F) => nul = nullify p pk sk (q.1 : F) q.2.amount q.2.ty) body.inputs (js.zip spent)) ∨
    ∃ s ∈ spent, ∃ s' ∈ spent, Collides p (commitCollision p ⟨pk, s.blind, s.amount, s.ty⟩ ⟨pk, s'.blind, s'.amount, s'.ty⟩).1
      (commitCollision p ⟨pk, s.blind, s.amount, s.ty⟩ ⟨pk, s'.blind, s'.amount, s'.ty⟩).2 := by
  have hin := hh.inputs
  clear hh
  generalize body.inputs = nuls at hin hnd
  induction hin with
  | nil => exact .inl ⟨[], .nil, .nil, .nil⟩
  | @cons nul s nuls spent hs _ ih =>
    obtain ⟨j, g1, g2⟩ := hs
    rw [List.nodup_cons] at hnd
    rcases ih hnd.2 with ⟨js, k1, k2, k3⟩ | ⟨a, ha, b, hb, hcol⟩
    · by_cases hj : j ∈ js
      · obtain ⟨i, hi, rfl⟩ := List.getElem_of_mem hj
        have hi' : i < spent.length := k2.length_eq ▸ hi
        have e2 := List.forall₂_iff_get.mp k2
        have e3 := List.forall₂_iff_get.mp k3
        have q2 := e2.2 i hi hi'
        have hz : i < (js.zip spent).length := by simp [hi, hi']
        have q3 := e3.2 i (e3.1 ▸ hz) hz
        simp only [List.get_eq_getElem, List.getElem_zip] at q2 q3
        rw [g1] at q2
        by_cases he : (⟨pk, s.blind, s.amount, s.ty⟩ : CommitIn F) = ⟨pk, spent[i].blind, spent[i].amount, spent[i].ty⟩
        · exfalso
          simp only [CommitIn.mk.injEq, true_and] at he
          apply hnd.1
          rw [g2, he.2.1, he.2.2, ← q3]
          exact List.getElem_mem _
        · exact .inr ⟨s, by simp, spent[i], by simp, C55_commitment_binding p _ _ (Option.some.inj q2) he⟩
      · exact .inl ⟨j :: js, List.nodup_cons.mpr ⟨hj, k1⟩, .cons g1 k2, .cons g2 k3⟩
    · exact .inr ⟨a, by simp [ha], b, by simp [hb], hcol⟩

/-! ### What goes wrong -/

omit [ScalarRepr F] in
/-- a note made by hand around an honest folding proof -/
theorem verifyNote_of {E : XfrExt F Par Pf} {Y : FoldExt P F G Hs Mp} {par : Par} {body : XfrBody F K} {h : Hs}
    {inst : FoldInst P F G Mp} {wit : FoldWitness P F} {pf : Pf} {foldPub : List F}
    (c6 : Y.verify xfrFoldLabel h inst = .ok (wit.beta, wit.lambda)) (c7 : inst.schnorr.comm = wit.comm)
    (c8 : inst.schnorr.responses.map (·.1) = wit.resps) (hv : verifierInput P wit.comm wit.beta wit.lambda wit.resps = some foldPub)
    (hpl : E.plonk par (xfrTranscript body.inputs.length body.outputs.length)
      (xfrPublic body.inputs body.root body.outputs body.fee ++ foldPub) pf = true) :
    E.verifyNote Y par (⟨body, pf, inst⟩ : XfrNote P F K Pf G Mp) body.root h = .ok () := by
  unfold XfrExt.verifyNote XfrExt.checkNote FoldInst.input XfrExt.verifyProof
  simp only [ne_eq, not_true_eq_false, if_false, c6, Res.bind_ok, c7, c8, hv, Res.unwrap_some]
  rw [if_pos hpl]

/-- C83 is violated (the circuit does not fix the constant one): for the verifier that compiles its circuit from any consistent
witness, and a proof system with a proof for every satisfying assignment, a note that turns records of the fee type into
records of any other amounts of this type is accepted. -/
theorem C83_unsound (hp : GoodParams p) (E : XfrExt F Par Pf) (Y : FoldExt P F G Hs Mp) (M : FoldProver P F G Hs Mp) (par : Par) (dbg : Bool)
    (hP : FoldOk P F) (hbits : P.bits ≤ 254) (modulus : Bytes) (hm : modulus.length = 32) (wit' : FoldWitness P F) (hwit : wit'.Consistent)
    (payers payers' : List (Payer F)) (payees payees' : List (Payee F)) (pk' : PK F) (sk' : SK F) (fee' feeType root : F)
    (vars : XfrVars FoldVars) (cs : CS F)
    (hb : buildMultiXfr p (foldingCircuit p dbg P modulus wit') payers' payees' pk' sk' fee' feeType CS.new = some (vars, cs))
    (hE : ProvesXfr E par cs) (key : FoldKey) (hk : key.x < P.r ∧ key.y < P.r ∧ key.s < P.r ∧ key.s < ofLE modulus) (h : Hs)
    (hM : M.Complete Y xfrFoldLabel h key) (fee : UInt32) (version : UInt64) (memos : List (AMemo K))
    (hne : payers ≠ []) (hne' : payees ≠ []) (hg : ∀ s ∈ payers, GoodPayer p (pkWords key.x key.y) root s)
    (hg' : ∀ t ∈ payees, ScalarRepr.val t.amount < 2 ^ 64) (hty : ∀ s ∈ payers, s.ty = feeType) (hty' : ∀ t ∈ payees, t.ty = feeType)
    (hl : payers'.map (fun s => s.path.length) = payers.map (fun s => s.path.length)) (hl' : payees'.length = payees.length) :
    ∃ (note : XfrNote P F K Pf G Mp), E.verifyNote Y par note root h = .ok () ∧
      note.body = ⟨payers.map (fun s => nullify p (pkWords key.x key.y) (skWords key.s) s.uid s.amount s.ty),
        payees.map (fun t => commit p t.pk t.blind t.amount t.ty), root, version, fee, memos⟩ := by
  obtain ⟨inst, wit, -, c2, c3, c4, c5, c6, c7, c8⟩ := folding_honest p P hP hbits Y M xfrFoldLabel h key hM (ofLE modulus) hk
    [(0, 0), (0, 0), (0, 0)] rfl 0
  rw [← c3, ← c4] at hg
  obtain ⟨vars', cs', pubs, foldPub, w, h1, h2, h3, h4, h5⟩ := C67_transfer_folding_unsound p hp dbg P hP modulus hm wit wit' c2 hwit
    payers payers' payees payees' pk' sk' (fee.toNat : F) fee' feeType root hne hne' hg hg' hty hty' hl hl'
  rw [hb] at h1
  obtain ⟨rfl, rfl⟩ := Prod.mk.inj (Option.some.inj h1)
  rw [c3, c4, c5] at h2
  have hpub : pubs = xfrPublic (payers.map (fun s => nullify p (pkWords key.x key.y) (skWords key.s) s.uid s.amount s.ty)) root
      (payees.map (fun t => commit p t.pk t.blind t.amount t.ty)) fee := by
    cases payers with
    | nil => exact absurd rfl hne
    | cons s l =>
      simp only [pubInputs, Option.some.injEq] at h2
      rw [← h2, ← c3, ← c4, (hg s (by simp)).root]
      rfl
  subst hpub
  obtain ⟨pf, hpf⟩ := hE _ _ w h4 h5
  exact ⟨⟨⟨_, _, root, version, fee, memos⟩, pf, inst⟩, verifyNote_of c6 c7 c8 h3 hpf, rfl⟩

omit [DecidableEq F] [ScalarRepr F] in
/-- the root of a tree with few leaves is a commitment: to amount 0 of type 0, under the key `(0, 0, 0)` -/
theorem sparse_root_commits [DecidableEq F] (leaves : List F) (hne : leaves ≠ []) (hlen : leaves.length ≤ 3 ^ 18) :
    Merkle.specRoot (treeHash p) 20 leaves = commit p (0, 0, 0) ((Merkle.node (treeHash p) leaves 18 0).getD 0) 0 0 := by
  have key : ∀ d, 18 ≤ d → (Merkle.node (treeHash p) leaves (d + 1) 0).getD 0 =
      treeHash p ((Merkle.node (treeHash p) leaves d 0).getD 0) 0 0 := by
    intro d hd
    have hpow : 3 ^ 18 ≤ 3 ^ d := Nat.pow_le_pow_right (by norm_num) hd
    have e1 : Merkle.node (treeHash p) leaves d 1 = none := (Merkle.node_isNone_iff _ _ _ _).mpr (by omega)
    have e2 : Merkle.node (treeHash p) leaves d 2 = none := (Merkle.node_isNone_iff _ _ _ _).mpr (by omega)
    have e0 := Merkle.node_zero_ne_none (treeHash p) hne d
    rw [Merkle.node_succ]
    simp only [Nat.mul_zero, Nat.zero_add, e1, e2, and_true, e0, if_false, Option.getD_some, Option.getD_none]
  unfold Merkle.specRoot
  rw [key 19 (by norm_num), key 18 (by norm_num)]
  rfl

/-- C83 is violated (the verifier does not compare the numbers of inputs and outputs with the parameters, and tree nodes and
commitments are not separated): let the parameters be made for `n` inputs and `m` outputs, let the ledger's tree have at most
`3^18` leaves, and let the attacker balance records of their own with the root `R` of a tree of their own.  Then a note with
one nullifier more and one output less is accepted for the root of the ledger; its last nullifier is `R`, and the circuit
takes the root of the ledger for the commitment of an output of amount 0.  None of the records has to be in the ledger's tree,
and the assignment has the constant one. -/
theorem C83_counts_unchecked (hp : GoodParams p) (E : XfrExt F Par Pf) (Y : FoldExt P F G Hs Mp) (M : FoldProver P F G Hs Mp) (par : Par)
    (dbg : Bool) (hP : FoldOk P F) (hbits : P.bits ≤ 254) (modulus : Bytes) (hm : modulus.length = 32) (wit' : FoldWitness P F)
    (hwit : wit'.Consistent) (payers payers' : List (Payer F)) (rest payees' : List (Payee F)) (pk' : PK F) (sk' : SK F)
    (fee' feeType R : F) (vars : XfrVars FoldVars) (cs : CS F)
    (hb : buildMultiXfr p (foldingCircuit p dbg P modulus wit') payers' payees' pk' sk' fee' feeType CS.new = some (vars, cs))
    (hE : ∀ tr pubs w, pubs.length = cs.pubVars.length → Sat cs w pubs → w 1 = 1 → ∃ pf, E.plonk par tr pubs pf = true) (key : FoldKey) (hk : key.x < P.r ∧ key.y < P.r ∧ key.s < P.r ∧ key.s < ofLE modulus) (h : Hs)
    (hM : M.Complete Y xfrFoldLabel h key) (fee : UInt32) (version : UInt64) (memos : List (AMemo K))
    (hne : payers ≠ []) (hg : ∀ s ∈ payers, GoodPayer p (pkWords key.x key.y) R s)
    (hg' : ∀ t ∈ rest, ScalarRepr.val t.amount < 2 ^ 64)
    (hl : payers'.map (fun s => s.path.length) = payers.map (fun s => s.path.length)) (hl' : payees'.length = rest.length + 1)
    (hbal : ∀ b, Balanced payers (⟨0, b, 0, (0, 0, 0)⟩ :: rest) feeType (fee.toNat : F))
    (c : Merkle.Codec F) (ops : List (Merkle.Op F)) (hcap : Merkle.adds ops ≤ 3 ^ 20) (hfew : (Merkle.Spec.run ops).cur.length ≤ 3 ^ 18)
    (hsome : (Merkle.Spec.run ops).cur ≠ []) (t : Merkle.Tree) (ht : Merkle.runTree c (treeHash p) ops = some t) :
    ∃ (root : F) (note : XfrNote P F K Pf G Mp), t.getRoot c = some root ∧ E.verifyNote Y par note root h = .ok () ∧
      note.body = ⟨payers.map (fun s => nullify p (pkWords key.x key.y) (skWords key.s) s.uid s.amount s.ty) ++ [R],
        rest.map (fun t => commit p t.pk t.blind t.amount t.ty), root, version, fee, memos⟩ := by
  obtain ⟨t', ht', hroot⟩ := Merkle.C03_root_is_tree_root c (treeHash p) ops hcap
  rw [ht] at ht'
  obtain rfl := Option.some.inj ht'
  obtain ⟨inst, wit, -, c2, c3, c4, c5, c6, c7, c8⟩ := folding_honest p P hP hbits Y M xfrFoldLabel h key hM (ofLE modulus) hk
    [(0, 0), (0, 0), (0, 0)] rfl 0
  set b := (Merkle.node (treeHash p) (Merkle.Spec.run ops).cur 18 0).getD 0 with hbd
  have hsr := sparse_root_commits p _ hsome hfew
  rw [← hbd] at hsr
  have hg0 := hg
  rw [← c3, ← c4] at hg
  have h0 : ScalarRepr.val (0 : F) = 0 := by
    have := ScalarRepr.val_cast (F := F) 0 (lt_of_le_of_lt (Nat.zero_le _) (ScalarRepr.val_lt (0 : F)))
    simpa using this
  obtain ⟨vars2, cs2, pubs, foldPub, h1, h2, h3, h4, h5, h6⟩ := C67_transfer_folding_complete p hp dbg P hP modulus hm wit c2 payers
    (⟨0, b, 0, (0, 0, 0)⟩ :: rest) (fee.toNat : F) feeType R hne (by simp) hg (by
      intro t ht
      rcases List.mem_cons.mp ht with rfl | ht
      · simp only [h0]
        norm_num
      · exact hg' t ht) (hbal b)
  have hshape : cs2.shape = cs.shape := (C67_transfer_uniform p _ _
    (fun pk sk => C72_folding_uniform p dbg P hP modulus wit wit' c2.consistent hwit pk sk) payers payers' (⟨0, b, 0, (0, 0, 0)⟩ :: rest) payees' _ pk' _ sk'
    _ fee' feeType hl.symm (by simp [hl'])).shape h1 hb
  rw [c3, c4, c5] at h2
  have hpub : pubs = xfrPublic (payers.map (fun s => nullify p (pkWords key.x key.y) (skWords key.s) s.uid s.amount s.ty) ++ [R])
      (Merkle.specRoot (treeHash p) 20 (Merkle.Spec.run ops).cur) (rest.map (fun t => commit p t.pk t.blind t.amount t.ty)) fee := by
    cases payers with
    | nil => exact absurd rfl hne
    | cons s l =>
      simp only [pubInputs, Option.some.injEq] at h2
      rw [← h2, (hg0 s (by simp)).root, hsr]
      simp [xfrPublic]
  subst hpub
  have hlen := congrArg List.length h4
  rw [CS.online, List.length_map, show cs2.pubVars = cs.pubVars from (show cs2.shape.pubVars = cs.shape.pubVars by rw [hshape])] at hlen
  replace hlen := hlen.symm
  obtain ⟨pf, hpf⟩ := hE (xfrTranscript (payers.map (fun s => nullify p (pkWords key.x key.y) (skWords key.s) s.uid s.amount s.ty) ++ [R]).length
    (rest.map (fun t => commit p t.pk t.blind t.amount t.ty)).length) _ cs2.value hlen (Sat.shape hshape.symm h5) h6
  exact ⟨_, ⟨⟨_, _, Merkle.specRoot (treeHash p) 20 (Merkle.Spec.run ops).cur, version, fee, memos⟩, pf, inst⟩, hroot,
    verifyNote_of c6 c7 c8 h3 hpf, rfl⟩

omit [ScalarRepr F] in
/-- C83, batches: the roots are compared where there is a root, and a note is verified only if there are parameters, a root and
a hash at its position. -/
theorem C83_batch_iff (E : XfrExt F Par Pf) (Y : FoldExt P F G Hs Mp) (pars : List Par) (notes : List (XfrNote P F K Pf G Mp))
    (roots : List F) (hs : List Hs) :
    E.batchVerify Y pars notes roots hs = true ↔
      (∀ (i : Nat) root note, roots[i]? = some root → notes[i]? = some note → root = note.body.root) ∧
      ∀ (i : Nat) par note root h, pars[i]? = some par → notes[i]? = some note → roots[i]? = some root → hs[i]? = some h →
        E.verifyNote Y par note root h = .ok () := by
  unfold XfrExt.batchVerify
  have hroot : ((roots.zip notes).any (fun (x, y) => x ≠ y.body.root) = false) ↔
      ∀ (i : Nat) root (note : XfrNote P F K Pf G Mp), roots[i]? = some root → notes[i]? = some note → root = note.body.root := by
    rw [List.any_eq_false]
    constructor
    · intro h i root note h1 h2
      simpa using h (root, note) (List.mem_of_getElem? (i := i) (List.getElem?_zip_eq_some.mpr ⟨h1, h2⟩))
    · rintro h ⟨root, note⟩ hm
      obtain ⟨i, hi⟩ := List.getElem?_of_mem hm
      obtain ⟨h1, h2⟩ := List.getElem?_zip_eq_some.mp hi
      simpa using h i root note h1 h2
  by_cases hr : (roots.zip notes).any (fun (x, y) => x ≠ y.body.root) = true
  · rw [if_pos hr]
    simp only [Bool.false_eq_true, false_iff]
    rintro ⟨h, -⟩
    rw [hroot.mpr h] at hr
    simp at hr
  · rw [if_neg hr, all_zip3]
    have hr := hroot.mp (by simpa using hr)
    simp only [decide_eq_true_eq]
    constructor
    · intro H
      refine ⟨hr, fun i par note root h h0 h1 h2 h3 => ?_⟩
      unfold XfrExt.verifyNote
      rw [if_neg (by simpa using hr i root note h2 h1)]
      exact H i (par, note) root h (List.getElem?_zip_eq_some.mpr ⟨h0, h1⟩) h2 h3
    · rintro ⟨-, H⟩ i ⟨par, note⟩ root h h1 h2 h3
      obtain ⟨h0, h1⟩ := List.getElem?_zip_eq_some.mp h1
      have := H i par note root h h0 h1 h2 h3
      unfold XfrExt.verifyNote at this
      rwa [if_neg (by simpa using hr i root note h2 h1)] at this

omit [ScalarRepr F] in
/-- C83 is violated for batches: without hashes or without parameters every batch is accepted for its own roots, whatever its
proofs are. -/
theorem C83_batch_ignores (E : XfrExt F Par Pf) (Y : FoldExt P F G Hs Mp) (notes : List (XfrNote P F K Pf G Mp)) (pars : List Par)
    (hs : List Hs) : E.batchVerify Y pars notes (notes.map (·.body.root)) [] = true ∧
      E.batchVerify Y [] notes (notes.map (·.body.root)) hs = true ∧ E.batchVerify Y pars notes [] hs = true := by
  refine ⟨(C83_batch_iff ..).mpr ⟨?_, ?_⟩, (C83_batch_iff ..).mpr ⟨?_, ?_⟩, (C83_batch_iff ..).mpr ⟨?_, ?_⟩⟩
  any_goals
    intro i root note h1 h2
    rw [List.getElem?_map, h2] at h1
    simpa using h1.symm
  all_goals simp

omit [ScalarRepr F] in
/-- C83, panics: the exact condition under which the verifier panics instead of returning. -/
theorem C83_panics_iff (E : XfrExt F Par Pf) (Y : FoldExt P F G Hs Mp) (par : Par) (note : XfrNote P F K Pf G Mp) (root : F) (h : Hs) :
    E.verifyNote Y par note root h = .panic ↔ root = note.body.root ∧
      (note.folding.coms.length < 3 ∨ ((Y.scalarMul xfrFoldLabel h note.folding.coms note.folding.mul).isSome ∧
        ¬ SchnorrShape note.folding.coms.length note.folding.schnorr)) := by
  rw [← fold_panic_iff]
  unfold XfrExt.verifyNote XfrExt.checkNote XfrExt.verifyProof
  by_cases hr : root = note.body.root
  swap
  · simp [hr]
  rw [if_neg (by simpa using hr)]
  simp only [hr, true_and]
  cases hv : Y.verify xfrFoldLabel h note.folding with
  | err => simp
  | panic => simp
  | ok c =>
    obtain ⟨h3, _, _, _, _, _, hl⟩ := fold_ok hv
    obtain ⟨l, hi, -⟩ := fold_input_ok note.folding (by rw [hl.2]; exact h3) c
    rw [Res.bind_ok, hi, Res.bind_ok]
    split <;> simp

end

end Verif.Anon
