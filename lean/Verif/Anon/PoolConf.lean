import Verif.Anon.Pool

/-!
C103: the anonymous pool pays out no more than was put in, with confidential records among the deposits and withdrawals.

The ledger of `Pool.lean` also takes conversions from and to confidential records (BAR to ABAR, ABAR to BAR).  Their amounts are not
published: they are the amounts to which the ordinary records are opened.  That the proofs are about these is special soundness of the
delegated Schnorr proof: the prover answers rewound verifiers, as in C77.
-/

namespace Verif.Anon

open Verif.Plonk Verif.Plonk.Spec Verif.Xfr Verif.SimFr Verif.SimFr.Spec Verif.StateComm Verif.Anon.Spec
open Verif.DelegatedSchnorr (Tr Msg point1 point2)

/-- the verifiers and parameters of a ledger that also takes confidential records -/
structure ConfEnv (S : Xfr.Types) (Q P : SimFr.Params) (F Par Pf G Hs Mp : Type) extends PoolEnv S Q P F Par Pf G Hs Mp where
  serBar : BarToAbarBody S Q F Pf → Option Bytes
  parBarIn : Par
  parBarOut : Par

/-- what is submitted: a transaction of `Pool.lean`, or a conversion from or to a confidential record; `key` is the key the ledger
hands to the verifier -/
inductive ConfTx (S : Xfr.Types) (Q P : SimFr.Params) (F K Pf G Hs Mp : Type) where
  | plain (tx : Tx S P F K Pf G Hs Mp)
  | deposit (note : BarToAbarNote S Q F Pf) (key : S.PK)
  | withdraw (age : Nat) (note : AbarToBarNote S P Q F Pf G Mp) (root : F) (hs : Hs)

/-- a prover of a delegated Schnorr proof that is rewound to its first and to its second challenge: random oracles, challenges,
responses, and what else it gives -/
structure Rewind (S : Xfr.Types) (Q : SimFr.Params) (F A : Type) where
  oracle : Fin 2 → Fin 2 → Tr (ZMod Q.r) S.G F → ZMod Q.r
  beta : Fin 2 → ZMod Q.r
  lambda : Fin 2 → Fin 2 → ZMod Q.r
  responses : Fin 2 → List (ZMod Q.r × ZMod Q.r)
  answer : Fin 2 → Fin 2 → A

/-- the challenges are those of the oracles, and they differ -/
structure Rewind.Challenges {S : Xfr.Types} {Q : SimFr.Params} {F A : Type} (R : Rewind S Q F A) (g : ChaumPedersen.Gens S.G)
    (label : String) (bound : F) (c : S.G × S.G) (comm : F) (randomizers : List S.G) : Prop where
  beta : ∀ b l, R.oracle b l (point1 g [.label label, .bound bound] [c.1, c.2] comm randomizers) = R.beta b
  beta_ne : R.beta 0 ≠ R.beta 1
  lambda : ∀ b l, R.oracle b l (point2 (point1 g [.label label, .bound bound] [c.1, c.2] comm randomizers) (R.responses b)) = R.lambda b l
  lambda_ne : ∀ b, R.lambda b 0 ≠ R.lambda b 1

/-- What the extractors read, and where; openings of ordinary records, where they are known; rewound provers. -/
structure ConfKnows (S : Xfr.Types) (Q P : SimFr.Params) (F Pf G Hs Mp : Type) extends PoolKnows F Pf where
  varsBarIn : BarVars F
  csBarIn : CS F
  xBarIn : Pf → Nat → F
  varsBarOut : AbarBarVars F FoldVars
  csBarOut : CS F
  xBarOut : Pf → Nat → F
  book : BlindAssetRecord S → Option (Whole Q)
  rewindIn : BarToAbarNote S Q F Pf → Rewind S Q F Pf
  rewindOut : AbarToBarNote S P Q F Pf G Mp → Rewind S Q F (AbarToBarNote S P Q F Pf G Mp × Hs)

section
variable {S : Xfr.Types} {Q P : SimFr.Params} {F K Par Pf G Hs Mp : Type} [Field F] [DecidableEq F]
variable [Fact P.r.Prime] [AddCommGroup G] [DecidableEq G] [Module (ZMod P.r) G]
variable [Fact Q.r.Prime] [AddCommGroup S.G] [DecidableEq S.G] [Module (ZMod Q.r) S.G]
variable (p : Rescue.Params F) (V : ConfEnv S Q P F Par Pf G Hs Mp)

/-- One step of the ledger. -/
inductive ConfPool.Step : Pool F → ConfTx S Q P F K Pf G Hs Mp → Pool F → Prop where
  | plain (s s' : Pool F) (tx) : Pool.Step p V.toPoolEnv s tx s' → ConfPool.Step s (.plain tx) s'
  | deposit (s : Pool F) (note key) : V.conv.verifyBarToAbar V.serBar V.parBarIn note key = .ok () →
      ConfPool.Step s (.deposit note key) ⟨s.stored ++ [note.body.output], s.nuls⟩
  | withdraw (s : Pool F) (age note root hs) : IsRoot p V.codec (s.stored.take age) root →
      V.conv.verifyAbarToBar V.fold V.parBarOut note root hs = .ok () → note.input ∉ s.nuls →
      ConfPool.Step s (.withdraw age note root hs) ⟨s.stored, s.nuls ++ [note.input]⟩

/-- A run of the ledger, from the empty pool. -/
inductive ConfPool.Run : List (ConfTx S Q P F K Pf G Hs Mp) → Pool F → Prop where
  | nil : ConfPool.Run [] ⟨[], []⟩
  | snoc {txs s tx s'} : ConfPool.Run txs s → ConfPool.Step p V s tx s' → ConfPool.Run (txs ++ [tx]) s'

variable {p V} (W : ConfKnows S Q P F Pf G Hs Mp)

/-- units of type `t` paid as fees -/
def confFees (V : ConfEnv S Q P F Par Pf G Hs Mp) (t : F) (txs : List (ConfTx S Q P F K Pf G Hs Mp)) : Nat :=
  (txs.map fun
    | .plain tx => Anon.fees V.toPoolEnv t [tx]
    | _ => 0).sum

namespace ConfKnows

/-- units of type `t` of an ordinary record, as it is opened; none when no opening is known -/
def units (t : F) (r : BlindAssetRecord S) : Nat :=
  match W.book r with
  | some o => if (o.ty : F) = t then o.amount else 0
  | none => 0

/-- units of type `t` put into the pool -/
def deposited (V : ConfEnv S Q P F Par Pf G Hs Mp) (t : F) (txs : List (ConfTx S Q P F K Pf G Hs Mp)) : Nat :=
  (txs.map fun
    | .plain tx => Anon.deposited V.toPoolEnv t [tx]
    | .deposit note _ => W.units t note.body.input
    | .withdraw _ _ _ _ => 0).sum

/-- units of type `t` paid out -/
def withdrawn (V : ConfEnv S Q P F Par Pf G Hs Mp) (t : F) (txs : List (ConfTx S Q P F K Pf G Hs Mp)) : Nat :=
  (txs.map fun
    | .plain tx => Anon.withdrawn V.toPoolEnv t [tx]
    | .deposit _ _ => 0
    | .withdraw _ note _ _ => W.units t note.output).sum

/-- public keys and records that a transaction spends, as extracted; for a rewound prover, from each of its proofs -/
def spends : ConfTx S Q P F K Pf G Hs Mp → List (PK F × Spent F)
  | .plain tx => W.toPoolKnows.spends tx
  | .deposit _ _ => []
  | .withdraw _ note _ _ =>
    (note :: [((W.rewindOut note).answer 0 0).1, ((W.rewindOut note).answer 0 1).1, ((W.rewindOut note).answer 1 0).1,
      ((W.rewindOut note).answer 1 1).1]).map fun n =>
        (pkVal (W.xBarOut n.proof) W.varsBarOut.spend.pk, spentVal (W.xBarOut n.proof) W.varsBarOut.spend.payer)

/-- secret keys and openings of the records that a transaction spends, as extracted; amount and type of a withdrawal are those to
which the new record is opened, if it is -/
def opens [ScalarRepr F] (V : ConfEnv S Q P F Par Pf G Hs Mp) : ConfTx S Q P F K Pf G Hs Mp → List (SK F × CommitIn F)
  | .plain tx => W.toPoolKnows.opens V.toPoolEnv tx
  | .deposit _ _ => []
  | .withdraw _ note _ _ =>
    let w := W.xBarOut note.proof
    let v := match W.book note.output with
      | some o => (o.amount, o.ty)
      | none => ((inspVal Q w W.varsBarOut.insp).x, (inspVal Q w W.varsBarOut.insp).y)
    [(skVal w W.varsBarOut.spend.sk, ⟨pkVal w W.varsBarOut.spend.pk, (spentVal w W.varsBarOut.spend.payer).blind, (v.1 : F), (v.2 : F)⟩)]

/-- openings of the commitments that a transaction makes, as extracted, each with the word that pads the outer hash -/
def makes : ConfTx S Q P F K Pf G Hs Mp → List (F × CommitIn F)
  | .plain tx => W.toPoolKnows.makes tx
  | .deposit note _ => [(W.xBarIn note.body.proof 0, (payeeVal (W.xBarIn note.body.proof) W.varsBarIn.out).opening)]
  | .withdraw _ _ _ _ => []

/-- a rewound prover whose proofs are about other values than the opening `o`: two state commitments collide, or there is a relation
between the generators of the Pedersen commitments -/
def Unlinked (V : ConfEnv S Q P F Par Pf G Hs Mp) {A : Type} (p : Rescue.Params F) [ScalarRepr F] (R : Rewind S Q F A)
    (insp : Fin 2 → Fin 2 → InspOpening F) (o : Whole Q) : Prop :=
  (∃ b l, Collide p ((insp 0 0).calls p Q) ((insp b l).calls p Q)) ∨
  Relation V.conv.gens ((insp 0 0).x : ZMod Q.r) (o.amount : ZMod Q.r) o.blind (R.responses 0)[0]? (R.responses 1)[0]? (R.beta 0)
    (R.beta 1) ∨
  Relation V.conv.gens ((insp 0 0).y : ZMod Q.r) (o.ty : ZMod Q.r) o.tyBlind (R.responses 0)[1]? (R.responses 1)[1]? (R.beta 0)
    (R.beta 1)

/-- what a rewound prover of a transaction gives away, if it cheats -/
def Cheats (V : ConfEnv S Q P F Par Pf G Hs Mp) (p : Rescue.Params F) [ScalarRepr F] : ConfTx S Q P F K Pf G Hs Mp → Prop
  | .plain _ => False
  | .deposit note _ => ∃ o, W.book note.body.input = some o ∧
      (Unlinked V p (W.rewindIn note) (fun b l => inspVal Q (W.xBarIn ((W.rewindIn note).answer b l)) W.varsBarIn.insp) o ∨
      ∃ b l, let w := W.xBarIn ((W.rewindIn note).answer b l)
        let y := (payeeVal (W.xBarIn note.body.proof) W.varsBarIn.out).opening
        Collides p (openCollision p (w 0) (payeeVal w W.varsBarIn.out).opening y).1
          (openCollision p (w 0) (payeeVal w W.varsBarIn.out).opening y).2)
  | .withdraw _ note _ _ => ∃ o, W.book note.output = some o ∧
      Unlinked V p (W.rewindOut note) (fun b l => inspVal Q (W.xBarOut ((W.rewindOut note).answer b l).1.proof) W.varsBarOut.insp) o

/-- the prover of the deposit, rewound, convinces the verifier for the same record, new commitment, state commitment and
randomizers; `o` opens the record -/
structure RewoundIn (V : ConfEnv S Q P F Par Pf G Hs Mp) (note : BarToAbarNote S Q F Pf) (o : Whole Q) : Prop where
  opens : o.Opens V.conv note.body.input
  first : (W.rewindIn note).answer 0 0 = note.body.proof
  challenges : (W.rewindIn note).Challenges V.conv.gens barToAbarLabel note.body.output (o.coms V.conv.gens) note.body.schnorr.comm
    note.body.schnorr.randomizers
  accepted : ∀ b l, ({ V.conv with oracle := (W.rewindIn note).oracle b l } : ConvExt S Q F Par Pf).verifyBarToAbarBody V.parBarIn
    note.body.input note.body.output ⟨note.body.schnorr.comm, note.body.schnorr.randomizers, (W.rewindIn note).responses b⟩
    ((W.rewindIn note).answer b l) = .ok ()

/-- the prover of the withdrawal, rewound, convinces the verifier for the same nullifier, new record, state commitment, randomizers
and root; `o` opens the new record -/
structure RewoundOut (V : ConfEnv S Q P F Par Pf G Hs Mp) (note : AbarToBarNote S P Q F Pf G Mp) (root : F) (o : Whole Q) : Prop where
  opens : o.Opens V.conv note.output
  first : ((W.rewindOut note).answer 0 0).1 = note
  challenges : (W.rewindOut note).Challenges V.conv.gens abarToBarLabel note.input (o.coms V.conv.gens) note.schnorr.comm
    note.schnorr.randomizers
  same : ∀ b l, ((W.rewindOut note).answer b l).1.input = note.input ∧ ((W.rewindOut note).answer b l).1.output = note.output ∧
    ((W.rewindOut note).answer b l).1.schnorr = ⟨note.schnorr.comm, note.schnorr.randomizers, (W.rewindOut note).responses b⟩
  accepted : ∀ b l, ({ V.conv with oracle := (W.rewindOut note).oracle b l } : ConvExt S Q F Par Pf).verifyAbarToBar V.fold V.parBarOut
    ((W.rewindOut note).answer b l).1 root ((W.rewindOut note).answer b l).2 = .ok ()

end ConfKnows

/-- Evidence, computed from what the extractors read in a run: a spend that is not of a record in the tree; a commitment made from one
opening and spent with another; a rewound prover that gives a collision or a relation between the generators away. -/
def ConfBroken [ScalarRepr F] (p : Rescue.Params F) (V : ConfEnv S Q P F Par Pf G Hs Mp) (W : ConfKnows S Q P F Pf G Hs Mp)
    (txs : List (ConfTx S Q P F K Pf G Hs Mp)) (stored : List F) : Prop :=
  (∃ e ∈ txs.flatMap W.spends, ∃ n, SpendBreak p (stored.take n) e.1 e.2) ∨
  (∃ y ∈ txs.flatMap (W.opens V), ∃ g ∈ txs.flatMap W.makes,
    Collides p (openCollision p g.1 g.2 y.2).1 (openCollision p g.1 g.2 y.2).2) ∨
  ∃ tx ∈ txs, W.Cheats V p tx

/-- The parameters are for the circuits of the code, and the proof system is an argument of knowledge for them. -/
structure ConfOk [ScalarRepr F] (p : Rescue.Params F) (V : ConfEnv S Q P F Par Pf G Hs Mp) (W : ConfKnows S Q P F Pf G Hs Mp) : Prop
    extends PoolOk p V.toPoolEnv W.toPoolKnows where
  insp : InspOk Q F
  size : 2 ^ 240 ≤ Q.r
  fieldSize : 2 ^ 240 ≤ ScalarRepr.order F
  barIn : ∃ dbg t wit, buildBarToAbar p dbg Q t wit CS.new = some (W.varsBarIn, W.csBarIn)
  barInKnows : Knows V.conv V.parBarIn barToAbarLabel W.csBarIn W.xBarIn
  barOut : ∃ dbg modulus wit insp s pk sk, modulus.length = 32 ∧ false ∈ modulus.flatMap byteBits ∧ s.path.length = 20 ∧
    buildAbarToBar p (foldingCircuit p dbg P modulus wit) dbg Q s pk sk insp CS.new = some (W.varsBarOut, W.csBarOut)
  barOutKnows : Knows V.conv V.parBarOut abarToBarLabel W.csBarOut W.xBarOut

/-- units of type `t` in a record that can be spent: its commitment is padded with zero -/
def live [ScalarRepr F] (t : F) (g : F × CommitIn F) : Nat := if g.1 = 0 then worth t g.2 else 0

/-- the units of type `t` in the record at position `j`, if it can be spent -/
def liveAt [ScalarRepr F] (M : List (F × CommitIn F)) (t : F) (j : Nat) : Nat := (M[j]?).elim 0 (live t)

/-! ### Deposits -/

variable {W}

/-- the commitment that an accepted deposit makes -/
theorem confDeposit_makes [ScalarRepr F] (hO : ConfOk p V W) (note : BarToAbarNote S Q F Pf) (key : S.PK)
    (h : V.conv.verifyBarToAbar V.serBar V.parBarIn note key = .ok ()) :
    note.body.output = commitZ p (W.xBarIn note.body.proof 0) (payeeVal (W.xBarIn note.body.proof) W.varsBarIn.out).pk
      (payeeVal (W.xBarIn note.body.proof) W.varsBarIn.out).blind (payeeVal (W.xBarIn note.body.proof) W.varsBarIn.out).amount
      (payeeVal (W.xBarIn note.body.proof) W.varsBarIn.out).ty := by
  unfold ConvExt.verifyBarToAbar at h
  obtain ⟨_, h, -⟩ := Res.bind_eq_ok.mp h
  obtain ⟨dbg, t, wit, hb⟩ := hO.barIn
  have hc : ∃ c, V.conv.recordComs note.body.input = .ok c := by
    unfold ConvExt.verifyBarToAbarBody at h
    split at h
    · cases h
    · obtain ⟨c, hc, -⟩ := Res.bind_eq_ok.mp h
      exact ⟨c, hc⟩
  obtain ⟨c, hc⟩ := hc
  obtain ⟨out, input, -, -, hpl⟩ := barToAbar_ok hc h
  obtain ⟨hl, hs⟩ := hO.barInKnows _ _ hpl
  obtain ⟨hw, pv, mo, hr⟩ := soundP_buildBarToAbar p hO.params dbg Q hO.insp t wit CS.new _ _ WF.new hb
  obtain ⟨com', input', e, hcom, -⟩ := hr _ _ hs
  have hpub : W.csBarIn.pubVars = pv := by rw [mo.pub]; rfl
  have hon := Sat.publics hw hs hl
  rw [hpub, e] at hon
  simp only [List.cons.injEq] at hon
  rw [← hon.1, hcom]
  rfl

/-- a deposit that can be spent has the amount and type of the ordinary record -/
theorem confDeposit_live [ScalarRepr F] (hO : ConfOk p V W) (note : BarToAbarNote S Q F Pf) (key : S.PK)
    (h : V.conv.verifyBarToAbar V.serBar V.parBarIn note key = .ok ()) (o : Whole Q) (hbook : W.book note.body.input = some o)
    (hR : W.RewoundIn V note o) (hcheat : ¬ W.Cheats V p (.deposit note key : ConfTx S Q P F K Pf G Hs Mp)) (t : F) :
    live t (W.xBarIn note.body.proof 0, (payeeVal (W.xBarIn note.body.proof) W.varsBarIn.out).opening) ≤ W.units t note.body.input := by
  unfold live
  split
  · rename_i h0
    simp only at h0
    have hm := confDeposit_makes hO note key h
    rw [h0] at hm
    obtain ⟨dbg, t', wit, hb⟩ := hO.barIn
    rcases C77_bar_to_abar_whole p hO.params dbg hO.insp hO.size V.conv V.parBarIn t' wit _ _ hb _ hO.barInKnows note.body.input
      note.body.output note.body.schnorr.comm note.body.schnorr.randomizers _ _ _ hR.accepted o hR.opens _ _ hR.challenges.beta
      hR.challenges.beta_ne hR.challenges.lambda hR.challenges.lambda_ne
      (payeeVal (W.xBarIn note.body.proof) W.varsBarIn.out).opening (by rw [hm, commitZ_zero]; rfl) with ⟨e1, e2⟩ | hc | hu
    · unfold worth ConfKnows.units
      rw [hbook, e1, e2]
      simp only
      rw [ScalarRepr.val_cast _ (lt_of_lt_of_le hR.opens.1.1 hO.fieldSize)]
    · exact absurd ⟨o, hbook, .inr hc⟩ hcheat
    · exact absurd ⟨o, hbook, .inl hu⟩ hcheat
  · exact Nat.zero_le _

/-! ### Withdrawals -/

/-- an accepted withdrawal spends a stored record -/
theorem confWithdraw_spends [ScalarRepr F] (hO : ConfOk p V W) (stored : List F) (age : Nat) (note : AbarToBarNote S P Q F Pf G Mp)
    (root : F) (hs : Hs) (hroot : IsRoot p V.codec stored root) (h : V.conv.verifyAbarToBar V.fold V.parBarOut note root hs = .ok ())
    (hR : ∀ o, W.book note.output = some o → W.RewoundOut V note root o)
    (hnb : ∀ e ∈ W.spends (.withdraw age note root hs : ConfTx S Q P F K Pf G Hs Mp), ¬ SpendBreak p stored e.1 e.2)
    (hcheat : ¬ W.Cheats V p (.withdraw age note root hs : ConfTx S Q P F K Pf G Hs Mp)) :
    ∀ e ∈ W.opens V (.withdraw age note root hs : ConfTx S Q P F K Pf G Hs Mp), ∃ j : Nat, stored[j]? = some (e.2.eval p) ∧
      note.input = nullify p e.2.pk e.1 (j : F) e.2.amount e.2.ty := by
  obtain ⟨ops, tr, r1, r2, r3, r4⟩ := hroot
  obtain ⟨dbg, modulus, wit, insp, sp, pk, sk, b1, b2, b3, b4⟩ := hO.barOut
  intro e he
  cases hbk : W.book note.output with
  | some o =>
    simp only [ConfKnows.opens, hbk, List.mem_singleton] at he
    subst he
    have hR := hR o hbk
    have hh := C77_abar_to_bar_whole p hO.params dbg hO.fold hO.insp hO.size modulus b1 b2 V.conv V.fold V.parBarOut wit insp sp b3 pk sk
      _ _ b4 _ hO.barOutKnows note.output note.input root note.schnorr.comm note.schnorr.randomizers _ _ _ hR.same _ hR.accepted o hR.opens
      _ _ hR.challenges.beta hR.challenges.beta_ne hR.challenges.lambda hR.challenges.lambda_ne V.codec ops r1 stored r2 tr r3 r4
    simp only at hh
    rcases hh with ⟨j, ch, g1, g2, -⟩ | ⟨b, l, hb⟩ | hu
    · rw [hR.first] at g1 g2
      exact ⟨j, g1, g2⟩
    · refine absurd hb (hnb (_, _) ?_)
      simp only [ConfKnows.spends, List.map_cons, List.map_nil, List.mem_cons, List.not_mem_nil, or_false]
      right
      have : (b = 0 ∨ b = 1) ∧ (l = 0 ∨ l = 1) := by omega
      rcases this with ⟨rfl | rfl, rfl | rfl⟩
      · exact .inl rfl
      · exact .inr (.inl rfl)
      · exact .inr (.inr (.inl rfl))
      · exact .inr (.inr (.inr rfl))
    · exact absurd ⟨o, hbk, hu⟩ hcheat
  | none =>
    simp only [ConfKnows.opens, hbk, List.mem_singleton] at he
    subst he
    have hc : ∃ c, V.conv.recordComs note.output = .ok c := by
      obtain ⟨-, -, h⟩ := (verifyAbarToBar_iff ..).mp h
      unfold ConvExt.checkAbarToBar at h
      obtain ⟨c, hc, -⟩ := Res.bind_eq_ok.mp h
      exact ⟨c, hc⟩
    obtain ⟨c, hc⟩ := hc
    obtain ⟨out, input, ch, fold, hv, hi, hch, hfo, hpl⟩ := abarToBar_ok hc h
    obtain ⟨hl, hsat⟩ := hO.barOutKnows _ _ hpl
    obtain ⟨t', ht', hin⟩ := C76_redeems_stored p hO.params dbg P Q hO.fold hO.insp modulus b1 b2 wit insp sp b3 pk sk _ _ b4 note.input
      root input fold hl _ out.1 out.2.1 _ hi _ ch.1 ch.2 _ hfo _ hsat V.codec ops r1 stored r2
    rw [r3] at ht'
    obtain rfl := Option.some.inj ht'
    rcases hin r4 with ⟨j, h1, h2, -, -⟩ | hbad
    · exact ⟨j, h1, h2⟩
    · exact absurd hbad (hnb (_, _) (by simp only [ConfKnows.spends, List.map_cons]; exact List.mem_cons_self))

/-! ### The accounts -/

omit [Fact Q.r.Prime] [AddCommGroup S.G] [DecidableEq S.G] [Module (ZMod Q.r) S.G] [DecidableEq G] [Fact P.r.Prime] [AddCommGroup G]
  [Module (ZMod P.r) G] in
theorem live_le [ScalarRepr F] (t : F) (g : F × CommitIn F) : live t g ≤ worth t g.2 := by
  unfold live
  split
  · exact le_rfl
  · exact Nat.zero_le _

omit [Fact Q.r.Prime] [AddCommGroup S.G] [DecidableEq S.G] [Module (ZMod Q.r) S.G] [DecidableEq G] [Fact P.r.Prime] [AddCommGroup G]
  [Module (ZMod P.r) G] in
/-- a spent record can be spent -/
theorem nulAt_live [ScalarRepr F] {M : List (F × CommitIn F)} {O : List (SK F × CommitIn F)} {nul : F} {j : Nat} (h : NulAt p M O nul j)
    (t : F) : liveAt M t j = worthAt M t j := by
  obtain ⟨e, -, g, hg, hz, -⟩ := h
  unfold liveAt worthAt live
  rw [hg]
  simp [hz]

theorem confStep_prefix {s s' : Pool F} {tx : ConfTx S Q P F K Pf G Hs Mp} (h : ConfPool.Step p V s tx s') : s.stored <+: s'.stored := by
  cases h with
  | plain _ _ h => exact step_prefix h
  | deposit => exact List.prefix_append _ _
  | withdraw => exact List.prefix_rfl

/-- a run with what is asked of its transactions -/
structure ConfRun [ScalarRepr F] (p : Rescue.Params F) (V : ConfEnv S Q P F Par Pf G Hs Mp) (W : ConfKnows S Q P F Pf G Hs Mp)
    (txs : List (ConfTx S Q P F K Pf G Hs Mp)) : Prop where
  /-- transfers have the constant one -/
  one : ∀ age note root hs, ConfTx.plain (.transfer age note root hs) ∈ txs → W.xfrW note 1 = 1
  /-- confidential records that are put in have a known opening, and the provers of the conversions answer when rewound -/
  deposit : ∀ note key, ConfTx.deposit note key ∈ txs → ∃ o, W.book note.body.input = some o ∧ W.RewoundIn V note o
  /-- so do the provers that pay out confidential records that are opened -/
  withdraw : ∀ age note root hs, ConfTx.withdraw age note root hs ∈ txs → ∀ o, W.book note.output = some o → W.RewoundOut V note root o
  /-- among the spends, a public key has one secret key -/
  key : ∀ e ∈ txs.flatMap (W.opens V), ∀ e' ∈ txs.flatMap (W.opens V), e.2.pk = e'.2.pk → e.1 = e'.1

theorem conf_stored [ScalarRepr F] (hO : ConfOk p V W) (all : List (ConfTx S Q P F K Pf G Hs Mp)) (hall : ConfRun p V W all)
    (stored : List F) (hnb : ∀ e ∈ all.flatMap W.spends, ∀ n, ¬ SpendBreak p (stored.take n) e.1 e.2)
    {txs : List (ConfTx S Q P F K Pf G Hs Mp)} {s : Pool F} (hrun : ConfPool.Run p V txs s) :
    (∀ tx ∈ txs, tx ∈ all) → s.stored <+: stored →
    s.stored = (txs.flatMap W.makes).map (fun g => commitZ p g.1 g.2.pk g.2.blind g.2.amount g.2.ty) := by
  induction hrun with
  | nil => exact fun _ _ => rfl
  | @snoc txs s tx s' hr hstep ih =>
    intro hin hpre
    have hpre0 := (confStep_prefix hstep).trans hpre
    have ih := ih (fun tx h => hin tx (by simp [h])) hpre0
    have htx := hin tx (by simp)
    have hfm : (txs ++ [tx]).flatMap W.makes = txs.flatMap W.makes ++ W.makes tx := by simp
    rw [hfm, List.map_append, ← ih]
    cases hstep with
    | plain _ tx hstep =>
      exact step_makes hO.toPoolOk (all.flatMap W.spends) stored hnb hstep
        (fun e he => List.mem_flatMap.mpr ⟨_, htx, he⟩) hpre0 (fun age note root hs h => hall.one age note root hs (h ▸ htx))
    | deposit note key hv =>
      rw [confDeposit_makes hO note key hv]
      rfl
    | withdraw => simp [ConfKnows.makes]

theorem conf_accounts [ScalarRepr F] (hO : ConfOk p V W) (all : List (ConfTx S Q P F K Pf G Hs Mp)) (hall : ConfRun p V W all)
    (M : List (F × CommitIn F)) (stored : List F) (hst : stored = M.map fun g => commitZ p g.1 g.2.pk g.2.blind g.2.amount g.2.ty)
    (hnb : ∀ e ∈ all.flatMap W.spends, ∀ n, ¬ SpendBreak p (stored.take n) e.1 e.2)
    (hnc : ∀ y ∈ all.flatMap (W.opens V), ∀ g ∈ M, ¬ Collides p (openCollision p g.1 g.2 y.2).1 (openCollision p g.1 g.2 y.2).2)
    (hch : ∀ tx ∈ all, ¬ W.Cheats V p tx)
    {txs : List (ConfTx S Q P F K Pf G Hs Mp)} {s : Pool F} (hrun : ConfPool.Run p V txs s) :
    (∀ tx ∈ txs, tx ∈ all) → s.stored <+: stored →
    ∃ js : List Nat, js.Nodup ∧ List.Forall₂ (NulAt p M (all.flatMap (W.opens V))) s.nuls js ∧
      ∀ t, ((txs.flatMap W.makes).map (live t)).sum + W.withdrawn V t txs + confFees V t txs ≤
        W.deposited V t txs + (js.map (worthAt M t)).sum := by
  induction hrun with
  | nil => exact fun _ _ => ⟨[], .nil, .nil, by simp [ConfKnows.withdrawn, confFees]⟩
  | @snoc txs s tx s' hr hstep ih =>
    intro hin hpre
    have hpre0 := (confStep_prefix hstep).trans hpre
    obtain ⟨js, i2, i3, i4⟩ := ih (fun tx h => hin tx (by simp [h])) hpre0
    have htx := hin tx (by simp)
    have hd : ∀ e ∈ W.spends tx, e ∈ all.flatMap W.spends := fun e he => List.mem_flatMap.mpr ⟨_, htx, he⟩
    have ho : ∀ e ∈ W.opens V tx, e ∈ all.flatMap (W.opens V) := fun e he => List.mem_flatMap.mpr ⟨_, htx, he⟩
    suffices hs : ∃ js', (js ++ js').Nodup ∧ List.Forall₂ (NulAt p M (all.flatMap (W.opens V))) s'.nuls (js ++ js') ∧
        ∀ t, ((W.makes tx).map (live t)).sum + W.withdrawn V t [tx] + confFees V t [tx] ≤
          W.deposited V t [tx] + (js'.map (worthAt M t)).sum by
      obtain ⟨js', k1, k2, k3⟩ := hs
      refine ⟨js ++ js', k1, k2, fun t => ?_⟩
      have := i4 t
      have := k3 t
      simp only [ConfKnows.withdrawn, confFees, ConfKnows.deposited, List.flatMap_append, List.flatMap_cons, List.flatMap_nil,
        List.append_nil, List.map_append, List.sum_append, List.map_cons, List.map_nil, List.sum_cons, List.sum_nil] at *
      omega
    cases hstep with
    | plain _ tx hstep =>
      obtain ⟨js', k1, k2, k3⟩ := step_accounts hO.toPoolOk M _ (all.flatMap W.spends) stored hst hnc hnb hall.key hstep ho hd hpre0
        (fun age note root hs h => hall.one age note root hs (h ▸ htx)) js i2 i3
      refine ⟨js', k1, k2, fun t => ?_⟩
      have h1 := k3 t
      have h2 : ((W.toPoolKnows.makes tx).map (live t)).sum ≤ ((W.toPoolKnows.makes tx).map (fun g => worth t g.2)).sum :=
        List.sum_le_sum (fun g _ => live_le t g)
      simp only [ConfKnows.makes, ConfKnows.withdrawn, confFees, ConfKnows.deposited, List.map_cons, List.map_nil, List.sum_cons,
        List.sum_nil]
      omega
    | deposit note key hv =>
      obtain ⟨o, hbook, hR⟩ := hall.deposit note key htx
      refine ⟨[], by simpa using i2, by simpa using i3, fun t => ?_⟩
      have := confDeposit_live hO note key hv o hbook hR (hch _ htx) t
      simp only [ConfKnows.makes, ConfKnows.withdrawn, confFees, ConfKnows.deposited, List.map_cons, List.map_nil, List.sum_cons,
        List.sum_nil]
      omega
    | withdraw age note root hs hroot hv hnew =>
      have hsp := confWithdraw_spends hO (s.stored.take age) age note root hs hroot hv (hall.withdraw age note root hs htx) (by
        intro e he hxb
        obtain ⟨m, hm⟩ := take_of_prefix hpre0 age
        rw [hm] at hxb
        exact hnb _ (hd e he) m hxb) (hch _ htx)
      obtain ⟨x, hop⟩ : ∃ x, W.opens V (.withdraw age note root hs : ConfTx S Q P F K Pf G Hs Mp) = [x] := ⟨_, rfl⟩
      obtain ⟨j, g1, g2⟩ := hsp x (by rw [hop]; simp)
      obtain ⟨js', k1, k2, k3⟩ := spend_many M _ hnc hall.key [note.input]
        (W.opens V (.withdraw age note root hs : ConfTx S Q P F K Pf G Hs Mp)) ho (by
          rw [hop]
          exact .cons ⟨j, by rw [← hst]; exact take_prefix hpre0 _ _ _ g1, g2⟩ .nil) s.nuls js i3 i2 (by simp) (by simpa using hnew)
      refine ⟨js', k1, k2, fun t => ?_⟩
      have hk := k3 t
      have hu : W.units t note.output ≤ worth t x.2 := by
        unfold ConfKnows.units
        cases hbk : W.book note.output with
        | none => exact Nat.zero_le _
        | some o =>
          have hx : x.2.amount = (o.amount : F) ∧ x.2.ty = (o.ty : F) := by
            simp only [ConfKnows.opens, hbk, List.cons.injEq, and_true] at hop
            rw [← hop]
            exact ⟨rfl, rfl⟩
          have hR := hall.withdraw age note root hs htx o hbk
          simp only
          unfold worth
          rw [hx.1, hx.2, ScalarRepr.val_cast _ (lt_of_lt_of_le hR.opens.1.1 hO.fieldSize)]
      rw [hop] at hk
      simp only [List.map_cons, List.map_nil, List.sum_cons, List.sum_nil] at hk
      simp only [ConfKnows.makes, ConfKnows.withdrawn, confFees, ConfKnows.deposited, List.map_cons, List.map_nil, List.sum_cons,
        List.sum_nil]
      omega

omit [Fact Q.r.Prime] [AddCommGroup S.G] [DecidableEq S.G] [Module (ZMod Q.r) S.G] [DecidableEq G] [Fact P.r.Prime] [AddCommGroup G]
  [Module (ZMod P.r) G] in
theorem sum_liveAt [ScalarRepr F] (M : List (F × CommitIn F)) (t : F) :
    ((List.range M.length).map (liveAt M t)).sum = (M.map (live t)).sum := by
  congr 1
  refine List.ext_getElem (by simp) ?_
  intro i h1 h2
  simp only [List.length_map, List.length_range] at h1
  simp [liveAt, h1]

/-- C103, the accounts of the pool with confidential records.  For every run of the ledger: every stored commitment is made from the
opening the extractor reads, the nullifiers belong to pairwise different positions, and for every asset type the units withdrawn, the
fees, and the units in the records at the other positions that can be spent are at most the units deposited, where a confidential
record counts with the amount to which it is opened; otherwise the extractors and the rewound provers give evidence against the hash
or the generators away.  A confidential record that is paid out and never opened counts nothing.  Nothing is asked of the halves of
the amounts.  Missing, because the code does not have it: see `C100_pool_accounts_partial`. -/
theorem C103_pool_accounts_partial [ScalarRepr F] (hO : ConfOk p V W) (txs : List (ConfTx S Q P F K Pf G Hs Mp)) (s : Pool F)
    (hrun : ConfPool.Run p V txs s) (hall : ConfRun p V W txs) :
    ConfBroken p V W txs s.stored ∨
    (s.stored = (txs.flatMap W.makes).map (fun g => commitZ p g.1 g.2.pk g.2.blind g.2.amount g.2.ty) ∧
      ∃ js : List Nat, js.Nodup ∧ js.length = s.nuls.length ∧ (∀ j ∈ js, j < s.stored.length) ∧
        ∀ t, W.withdrawn V t txs + confFees V t txs +
          (((List.range s.stored.length).filter (fun j => j ∉ js)).map (liveAt (txs.flatMap W.makes) t)).sum ≤ W.deposited V t txs) := by
  by_cases hb : ConfBroken p V W txs s.stored
  · exact .inl hb
  right
  unfold ConfBroken at hb
  push Not at hb
  have hst := conf_stored hO txs hall s.stored hb.1 hrun (fun _ h => h) List.prefix_rfl
  obtain ⟨js, k1, k2, k3⟩ := conf_accounts hO txs hall _ s.stored hst hb.1 hb.2.1 hb.2.2 hrun (fun _ h => h) List.prefix_rfl
  have hlen : s.stored.length = (txs.flatMap W.makes).length := by rw [hst, List.length_map]
  have hlive : ∀ j ∈ js, j < s.stored.length ∧ ∀ t, liveAt (txs.flatMap W.makes) t j = worthAt (txs.flatMap W.makes) t j := by
    intro j hj
    obtain ⟨i, hi, rfl⟩ := List.getElem_of_mem hj
    have q := List.forall₂_iff_get.mp k2
    have hn := q.2 i (q.1 ▸ hi) hi
    refine ⟨?_, nulAt_live hn⟩
    obtain ⟨_, _, g, hg, _⟩ := hn
    rw [List.get_eq_getElem] at hg
    rw [hlen]
    exact (List.getElem?_eq_some_iff.mp hg).1
  refine ⟨hst, js, k1, k2.length_eq.symm, fun j hj => (hlive j hj).1, fun t => ?_⟩
  have h3 := k3 t
  have h4 := sum_split s.stored.length js k1 (fun j hj => (hlive j hj).1) (liveAt (txs.flatMap W.makes) t)
  rw [← sum_liveAt, ← hlen, h4, List.map_congr_left (fun j hj => (hlive j hj).2 t)] at h3
  omega

/-- C103: for every run of the ledger and every asset type, the units paid out and the fees are at most the units put in; otherwise
there is evidence against the hash or the generators.  What is missing is said at `C103_pool_accounts_partial`. -/
theorem C103_pool_conserves_partial [ScalarRepr F] (hO : ConfOk p V W) (txs : List (ConfTx S Q P F K Pf G Hs Mp)) (s : Pool F)
    (hrun : ConfPool.Run p V txs s) (hall : ConfRun p V W txs) :
    ConfBroken p V W txs s.stored ∨ ∀ t, W.withdrawn V t txs + confFees V t txs ≤ W.deposited V t txs := by
  rcases C103_pool_accounts_partial hO txs s hrun hall with h | ⟨-, js, -, -, -, h⟩
  · exact .inl h
  · exact .inr fun t => by have := h t; omega

end

end Verif.Anon
