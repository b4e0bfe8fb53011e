import Verif.Anon.ConvertEnd
import Verif.Anon.XfrNoteProps

/-!
C100: the anonymous pool pays out no more than was put in.

A ledger keeps the commitments of the anonymous records and the nullifiers it has seen.  It takes deposits (AR to ABAR), anonymous
transfers and withdrawals (ABAR to AR) that the verifiers of the library accept, against roots its accumulator has had, with nullifiers
that are new.  The ledger itself is not in the repository; its rules are those of the comments of api/src/anon_xfr/structs.rs and of the
tests (api/src/anon_xfr/abar_to_abar.rs, tests): commitments are appended, roots are of committed versions, nullifiers are unique.
-/

namespace Verif.Anon

open Verif.Plonk Verif.Plonk.Spec Verif.Xfr Verif.SimFr Verif.SimFr.Spec Verif.StateComm Verif.Anon.Spec

/-- the verifiers and parameters a ledger uses; transfers have parameters for their numbers of inputs and outputs, if these are
supported (api/src/setup.rs:412-437, `load`: numbers up to MAX_ANONYMOUS_RECORD_NUMBER) -/
structure PoolEnv (S : Xfr.Types) (Q P : SimFr.Params) (F Par Pf G Hs Mp : Type) where
  conv : ConvExt S Q F Par Pf
  ser : ArToAbarBody S F Pf → Option Bytes
  xfr : XfrExt F Par Pf
  fold : FoldExt P F G Hs Mp
  parIn : Par
  parOut : Par
  parXfr : Nat → Nat → Par
  supports : Nat → Nat → Prop
  codec : Merkle.Codec F
  feeType : F

/-- what is submitted to the ledger; `age` is the number of commitments in the tree whose root the note refers to -/
inductive Tx (S : Xfr.Types) (P : SimFr.Params) (F K Pf G Hs Mp : Type) where
  | deposit (note : ArToAbarNote S F Pf)
  | transfer (age : Nat) (note : XfrNote P F K Pf G Mp) (root : F) (hs : Hs)
  | withdraw (age : Nat) (note : AbarToArNote S P F Pf G Mp) (root : F) (hs : Hs)

/-- the state of the ledger: commitments in the order of their uids, and nullifiers -/
structure Pool (F : Type) where
  stored : List F
  nuls : List F

section
variable {S : Xfr.Types} {Q P : SimFr.Params} {F K Par Pf G Hs Mp : Type} [Field F] [DecidableEq F]
variable [Fact P.r.Prime] [AddCommGroup G] [DecidableEq G] [Module (ZMod P.r) G]

/-- `root` is the root that an accumulator has given, after some history, when its leaves were those of `stored` -/
def IsRoot (p : Rescue.Params F) (c : Merkle.Codec F) (stored : List F) (root : F) : Prop :=
  ∃ ops t, Merkle.adds ops ≤ 3 ^ 20 ∧ (Merkle.Spec.run ops).cur = leavesOf p stored ∧ Merkle.runTree c (treeHash p) ops = some t ∧
    t.getRoot c = some root

variable (p : Rescue.Params F) (V : PoolEnv S Q P F Par Pf G Hs Mp)

/-- One step of the ledger. -/
inductive Pool.Step : Pool F → Tx S P F K Pf G Hs Mp → Pool F → Prop where
  | deposit (s : Pool F) (note) : V.conv.verifyArToAbar V.ser V.parIn note = .ok () →
      Pool.Step s (.deposit note) ⟨s.stored ++ [note.body.output], s.nuls⟩
  | transfer (s : Pool F) (age note root hs) : IsRoot p V.codec (s.stored.take age) root →
      V.supports note.body.inputs.length note.body.outputs.length →
      V.xfr.verifyNote V.fold (V.parXfr note.body.inputs.length note.body.outputs.length) note root hs = .ok () →
      note.body.inputs.Nodup → (∀ n ∈ note.body.inputs, n ∉ s.nuls) →
      Pool.Step s (.transfer age note root hs) ⟨s.stored ++ note.body.outputs, s.nuls ++ note.body.inputs⟩
  | withdraw (s : Pool F) (age note root hs) : IsRoot p V.codec (s.stored.take age) root →
      V.conv.verifyAbarToAr V.fold V.parOut note root hs = .ok () → note.input ∉ s.nuls →
      Pool.Step s (.withdraw age note root hs) ⟨s.stored, s.nuls ++ [note.input]⟩

/-- A run of the ledger, from the empty pool. -/
inductive Pool.Run : List (Tx S P F K Pf G Hs Mp) → Pool F → Prop where
  | nil : Pool.Run [] ⟨[], []⟩
  | snoc {txs s tx s'} : Pool.Run txs s → Pool.Step p V s tx s' → Pool.Run (txs ++ [tx]) s'

/-- units of the type with number `t` of a non-confidential record -/
def unitsOf (asNat : S.AT → Nat) (t : F) (r : BlindAssetRecord S) : Nat :=
  match r.amount, r.assetType with
  | .plain a, .plain ty => if (asNat ty : F) = t then a.toNat else 0
  | _, _ => 0

/-- units of type `t` put into the pool, as the submitted notes say -/
def deposited (t : F) (txs : List (Tx S P F K Pf G Hs Mp)) : Nat :=
  (txs.map fun
    | .deposit note => unitsOf V.conv.asNat t note.body.input
    | _ => 0).sum

/-- units of type `t` paid out, as the submitted notes say -/
def withdrawn (t : F) (txs : List (Tx S P F K Pf G Hs Mp)) : Nat :=
  (txs.map fun
    | .withdraw _ note _ _ => unitsOf V.conv.asNat t note.output
    | _ => 0).sum

/-- units of type `t` paid as fees, as the submitted notes say -/
def fees (t : F) (txs : List (Tx S P F K Pf G Hs Mp)) : Nat :=
  (txs.map fun
    | .transfer _ note _ _ => if t = V.feeType then note.body.fee.toNat else 0
    | _ => 0).sum

/-- What the extractors for the proofs read, and where: the variables of the three circuits, and assignments. -/
structure PoolKnows (F Pf : Type) where
  varsIn : PayeeVars
  csIn : CS F
  xIn : Pf → Nat → F
  varsOut : AbarVars FoldVars
  csOut : CS F
  xOut : Pf → Nat → F
  varsXfr : Nat → Nat → XfrVars FoldVars
  csXfr : Nat → Nat → CS F
  xXfr : Nat → Nat → Pf → Nat → F

variable {p V}

namespace PoolKnows

variable (W : PoolKnows F Pf)

/-- the assignment of a transfer -/
def xfrW (note : XfrNote P F K Pf G Mp) : Nat → F := W.xXfr note.body.inputs.length note.body.outputs.length note.proof

/-- the variables of a transfer -/
def xfrVars (note : XfrNote P F K Pf G Mp) : XfrVars FoldVars := W.varsXfr note.body.inputs.length note.body.outputs.length

/-- public keys and records, with their Merkle paths, that a transaction spends, as extracted -/
def spends : Tx S P F K Pf G Hs Mp → List (PK F × Spent F)
  | .deposit _ => []
  | .transfer _ note _ _ => ((W.xfrVars note).payers.map (spentVal (W.xfrW note))).map
      fun s => (pkVal (W.xfrW note) (W.xfrVars note).pk, s)
  | .withdraw _ note _ _ => [(pkVal (W.xOut note.proof) W.varsOut.spend.pk,
      spentVal (W.xOut note.proof) W.varsOut.spend.payer)]

/-- secret keys and openings of the records that a transaction spends, as extracted; the amount and type of a withdrawal are the
published ones -/
def opens (V : PoolEnv S Q P F Par Pf G Hs Mp) : Tx S P F K Pf G Hs Mp → List (SK F × CommitIn F)
  | .deposit _ => []
  | .transfer _ note _ _ => ((W.xfrVars note).payers.map (spentVal (W.xfrW note))).map
      fun s => (skVal (W.xfrW note) (W.xfrVars note).sk, ⟨pkVal (W.xfrW note) (W.xfrVars note).pk, s.blind, s.amount, s.ty⟩)
  | .withdraw _ note _ _ =>
    match note.output.amount, note.output.assetType with
    | .plain a, .plain ty => [(skVal (W.xOut note.proof) W.varsOut.spend.sk, ⟨pkVal (W.xOut note.proof) W.varsOut.spend.pk,
        (spentVal (W.xOut note.proof) W.varsOut.spend.payer).blind, (a.toNat : F), (V.conv.asNat ty : F)⟩)]
    | _, _ => []

/-- openings of the commitments that a transaction makes, as extracted, each with the word that pads the outer hash -/
def makes : Tx S P F K Pf G Hs Mp → List (F × CommitIn F)
  | .deposit note => [(W.xIn note.body.proof 0, (payeeVal (W.xIn note.body.proof) W.varsIn).opening)]
  | .transfer _ note _ _ => ((W.xfrVars note).payees.map (payeeVal (W.xfrW note))).map fun t => (0, t.opening)
  | .withdraw _ _ _ _ => []

end PoolKnows

/-- Evidence against the hash, computed from what the extractors read in a run: a spend that is not of a record in the tree; a
commitment made from one opening and spent with another. -/
def PoolBroken (p : Rescue.Params F) (V : PoolEnv S Q P F Par Pf G Hs Mp) (W : PoolKnows F Pf) (txs : List (Tx S P F K Pf G Hs Mp))
    (stored : List F) : Prop :=
  (∃ e ∈ txs.flatMap W.spends, ∃ n, SpendBreak p (stored.take n) e.1 e.2) ∨
  (∃ y ∈ txs.flatMap (W.opens V), ∃ g ∈ txs.flatMap W.makes,
    Collides p (openCollision p g.1 g.2 y.2).1 (openCollision p g.1 g.2 y.2).2)

/-- The parameters are for the circuits of the code, with paths of the depth of the tree, and the proof system is an argument of
knowledge for them. -/
structure PoolOk [ScalarRepr F] (p : Rescue.Params F) (V : PoolEnv S Q P F Par Pf G Hs Mp) (W : PoolKnows F Pf) : Prop where
  params : GoodParams p
  fold : FoldOk P F
  order : 2 ^ 64 < ScalarRepr.order F
  deposit : ∃ t, buildArToAbar p t CS.new = some (W.varsIn, W.csIn)
  depositKnows : Knows V.conv V.parIn arToAbarLabel W.csIn W.xIn
  withdraw : ∃ dbg modulus wit s pk sk, modulus.length = 32 ∧ false ∈ modulus.flatMap byteBits ∧ s.path.length = 20 ∧
    buildAbarToAr p (foldingCircuit p dbg P modulus wit) s pk sk CS.new = some (W.varsOut, W.csOut)
  withdrawKnows : Knows V.conv V.parOut abarToArLabel W.csOut W.xOut
  transfer : ∀ n m, V.supports n m → ∃ dbg modulus wit payers payees pk sk fee, modulus.length = 32 ∧
    false ∈ modulus.flatMap byteBits ∧ payers.length = n ∧ payees.length = m ∧ (∀ s ∈ payers, s.path.length = 20) ∧
    n * 2 ^ 64 < ScalarRepr.order F ∧ (m + 1) * 2 ^ 64 < ScalarRepr.order F ∧
    buildMultiXfr p (foldingCircuit p dbg P modulus wit) payers payees pk sk fee V.feeType CS.new = some (W.varsXfr n m, W.csXfr n m)
  transferKnows : ∀ n m, V.supports n m → KnowsXfr V.xfr (V.parXfr n m) (W.csXfr n m) (W.xXfr n m)

/-- units of type `t` in a record -/
def worth [ScalarRepr F] (t : F) (x : CommitIn F) : Nat := if x.ty = t then ScalarRepr.val x.amount else 0


/-! ### The accounts -/

theorem units_worth [ScalarRepr F] (ho : 2 ^ 64 < ScalarRepr.order F) (asNat : S.AT → Nat) (t : F) (r : BlindAssetRecord S) (a : UInt64)
    (ty : S.AT) (h1 : r.amount = .plain a) (h2 : r.assetType = .plain ty) (pk : PK F) (blind : F) :
    unitsOf asNat t r = worth t ⟨pk, blind, (a.toNat : F), (asNat ty : F)⟩ := by
  unfold unitsOf worth
  rw [h1, h2]
  simp only
  rw [ScalarRepr.val_cast _ (lt_trans a.toNat_lt ho)]

theorem sum_worth [ScalarRepr F] {α : Type} (t : F) (ty amount : α → F) (g : α → CommitIn F)
    (hg : ∀ x, (g x).ty = ty x ∧ (g x).amount = amount x) (l : List α) :
    ((l.filter (fun s => ty s = t)).map (fun s => ScalarRepr.val (amount s))).sum = (l.map (fun s => worth t (g s))).sum := by
  induction l with
  | nil => rfl
  | cons s l ih =>
    unfold worth at ih ⊢
    by_cases h : ty s = t
    · simp [h, ih, hg]
    · simp [h, ih, hg]

omit [Fact P.r.Prime] [AddCommGroup G] [DecidableEq G] [Module (ZMod P.r) G] in
/-- what was put in, as the circuit sees it -/
theorem deposit_makes [ScalarRepr F] {W : PoolKnows F Pf} (hO : PoolOk p V W) (note : ArToAbarNote S F Pf)
    (h : V.conv.verifyArToAbar V.ser V.parIn note = .ok ()) :
    ∃ a ty, note.body.input.amount = .plain a ∧ note.body.input.assetType = .plain ty ∧
      (payeeVal (W.xIn note.body.proof) W.varsIn).amount = (a.toNat : F) ∧
      (payeeVal (W.xIn note.body.proof) W.varsIn).ty = (V.conv.asNat ty : F) ∧
      note.body.output = commitZ p (W.xIn note.body.proof 0) (payeeVal (W.xIn note.body.proof) W.varsIn).pk
        (payeeVal (W.xIn note.body.proof) W.varsIn).blind (payeeVal (W.xIn note.body.proof) W.varsIn).amount
        (payeeVal (W.xIn note.body.proof) W.varsIn).ty := by
  unfold ConvExt.verifyArToAbar at h
  obtain ⟨m, -, h⟩ := Res.bind_eq_ok.mp h
  split at h
  · unfold ConvExt.verifyArToAbarBody at h
    split at h
    · rename_i a ty ha ht
      split at h
      · rename_i hpl
        obtain ⟨t, hb⟩ := hO.deposit
        obtain ⟨hlen, hs⟩ := hO.depositKnows _ _ hpl
        obtain ⟨hw, pv, mo, h⟩ := soundP_buildArToAbar p hO.params t CS.new W.varsIn W.csIn WF.new hb
        have hv := h _ _ hs
        have hpub : W.csIn.pubVars = pv := by rw [mo.pub]; rfl
        have hon := Sat.publics hw hs hlen
        rw [hpub, hv] at hon
        simp only [List.cons.injEq, and_true] at hon
        obtain ⟨e1, e2, e3⟩ := hon
        exact ⟨a, ty, ha, ht, e1, e2, e3.symm⟩
      · cases h
    · cases h
  · cases h

/-- the units of type `t` in the record at position `j` -/
def worthAt [ScalarRepr F] (M : List (F × CommitIn F)) (t : F) (j : Nat) : Nat := (M[j]?).elim 0 (fun g => worth t g.2)

/-- `nul` is the nullifier of the record at position `j`, whose commitment is padded with zero, for a spend of the run -/
def NulAt (p : Rescue.Params F) (M : List (F × CommitIn F)) (O : List (SK F × CommitIn F)) (nul : F) (j : Nat) : Prop :=
  ∃ e ∈ O, ∃ g, M[j]? = some g ∧ g.1 = 0 ∧ e.2 = g.2 ∧ nul = nullify p e.2.pk e.1 (j : F) e.2.amount e.2.ty

theorem spend_many [ScalarRepr F] (M : List (F × CommitIn F)) (O : List (SK F × CommitIn F))
    (hnc : ∀ y ∈ O, ∀ g ∈ M, ¬ Collides p (openCollision p g.1 g.2 y.2).1 (openCollision p g.1 g.2 y.2).2)
    (hkey : ∀ e ∈ O, ∀ e' ∈ O, e.2.pk = e'.2.pk → e.1 = e'.1)
    (new : List F) (es : List (SK F × CommitIn F)) (hes : ∀ e ∈ es, e ∈ O)
    (h : List.Forall₂ (fun nul (e : SK F × CommitIn F) => ∃ j : Nat,
      (M.map fun g => commitZ p g.1 g.2.pk g.2.blind g.2.amount g.2.ty)[j]? = some (e.2.eval p) ∧
      nul = nullify p e.2.pk e.1 (j : F) e.2.amount e.2.ty) new es) :
    ∀ (nuls : List F) (js : List Nat), List.Forall₂ (NulAt p M O) nuls js → js.Nodup → new.Nodup → (∀ n ∈ new, n ∉ nuls) →
    ∃ js', (js ++ js').Nodup ∧ List.Forall₂ (NulAt p M O) (nuls ++ new) (js ++ js') ∧
      ∀ t, (js'.map (worthAt M t)).sum = (es.map (fun e => worth t e.2)).sum := by
  induction h with
  | nil =>
    intro nuls js h1 h2 _ _
    exact ⟨[], by simpa using h2, by simpa using h1, by simp⟩
  | @cons nul e new es hj _ ih =>
    intro nuls js h1 h2 h3 h4
    obtain ⟨j, hj, hn⟩ := hj
    rw [List.getElem?_map] at hj
    obtain ⟨g, hg, hge⟩ := Option.map_eq_some_iff.mp hj
    obtain ⟨hz, he⟩ := (commitZ_opens p g.1 g.2 e.2 hge.symm).resolve_right
      (hnc e (hes e (by simp)) g (List.mem_of_getElem? hg))
    have hN : NulAt p M O nul j := ⟨e, hes e (by simp), g, hg, hz, he, hn⟩
    have hnj : j ∉ js := by
      intro hm
      obtain ⟨i, hi, rfl⟩ := List.getElem_of_mem hm
      have q := List.forall₂_iff_get.mp h1
      obtain ⟨e', he', g', hg', -, hee, hn'⟩ := q.2 i (q.1 ▸ hi) hi
      simp only [List.get_eq_getElem] at hg' hn'
      rw [hg] at hg'
      obtain rfl := Option.some.inj hg'
      have heq : e'.2 = e.2 := hee.trans he.symm
      have hsk := hkey e' he' e (hes e (by simp)) (by rw [heq])
      rw [heq, hsk, ← hn] at hn'
      exact h4 nul (by simp) (hn' ▸ List.getElem_mem _)
    rw [List.nodup_cons] at h3
    obtain ⟨js', k1, k2, k3⟩ := ih (fun e he => hes e (by simp [he])) (nuls ++ [nul]) (js ++ [j])
      (List.rel_append h1 (.cons hN .nil)) (by
        rw [List.nodup_append]
        refine ⟨h2, by simp, ?_⟩
        intro a ha b hb
        simp only [List.mem_singleton] at hb
        subst hb
        exact fun h => hnj (h ▸ ha)) h3.2 (by
        intro n hn hm
        rcases List.mem_append.mp hm with hm | hm
        · exact h4 n (by simp [hn]) hm
        · simp only [List.mem_singleton] at hm
          exact h3.1 (hm ▸ hn))
    refine ⟨j :: js', by simpa using k1, by simpa using k2, fun t => ?_⟩
    rw [List.map_cons, List.sum_cons, List.map_cons, List.sum_cons, k3 t]
    congr 1
    unfold worthAt
    rw [hg, he]
    rfl

omit [Field F] [DecidableEq F] in
theorem take_prefix {l l' : List F} (h : l <+: l') (n j : Nat) (x : F) (hx : (l.take n)[j]? = some x) : l'[j]? = some x := by
  have h1 : l.take n <+: l' := (List.take_prefix n l).trans h
  obtain ⟨r, rfl⟩ := h1
  have hj : j < (l.take n).length := by
    by_contra hc
    rw [List.getElem?_eq_none (by omega)] at hx
    cases hx
  rw [List.getElem?_append_left hj]
  exact hx

omit [Field F] [DecidableEq F] in
theorem take_of_prefix {l l' : List F} (h : l <+: l') (n : Nat) : ∃ m, l.take n = l'.take m := by
  have h1 : l.take n <+: l' := (List.take_prefix n l).trans h
  exact ⟨_, List.prefix_iff_eq_take.mp h1⟩

/-- what a step with a transfer says -/
theorem transfer_honours [ScalarRepr F] {W : PoolKnows F Pf} (hO : PoolOk p V W) (D : List (PK F × Spent F)) (stored : List F)
    (hnb : ∀ e ∈ D, ∀ n, ¬ SpendBreak p (stored.take n) e.1 e.2) (s : Pool F) (hpre : s.stored <+: stored) (age : Nat)
    (note : XfrNote P F K Pf G Mp) (root : F) (hs : Hs) (hd : ∀ e ∈ W.spends (.transfer age note root hs : Tx S P F K Pf G Hs Mp), e ∈ D)
    (hroot : IsRoot p V.codec (s.stored.take age) root) (hsup : V.supports note.body.inputs.length note.body.outputs.length)
    (hv : V.xfr.verifyNote V.fold (V.parXfr note.body.inputs.length note.body.outputs.length) note root hs = .ok ())
    (h1 : W.xfrW note 1 = 1) :
    Honours p (s.stored.take age) (pkVal (W.xfrW note) (W.xfrVars note).pk) (skVal (W.xfrW note) (W.xfrVars note).sk)
      ((W.xfrVars note).payers.map (spentVal (W.xfrW note))) ((W.xfrVars note).payees.map (payeeVal (W.xfrW note))) V.feeType
      note.body := by
  obtain ⟨ops, tr, r1, r2, r3, r4⟩ := hroot
  obtain ⟨dbg, modulus, wit, payers, payees, pk, sk, fee, b1, b2, b3, b4, b5, b6, b7, b8⟩ := hO.transfer _ _ hsup
  obtain ⟨-, ch, -, -, hh⟩ := C83_transfer_note_sound_partial p hO.params V.xfr V.fold _ dbg hO.fold modulus b1 b2 wit payers
    payees b5 pk sk fee V.feeType (by rw [b3]; exact b6) (by rw [b4]; exact b7) _ _ b8 _ (hO.transferKnows _ _ hsup) note root hs hv
    h1 b3.symm b4.symm V.codec ops r1 _ r2 tr r3 r4
  refine hh.resolve_right ?_
  rintro ⟨x, hx, hxb⟩
  obtain ⟨m, hm⟩ := take_of_prefix hpre age
  rw [hm] at hxb
  exact hnb _ (hd (_, x) (List.mem_map.mpr ⟨x, hx, rfl⟩)) m (.inl hxb)

theorem step_prefix {s s' : Pool F} {tx : Tx S P F K Pf G Hs Mp} (h : Pool.Step p V s tx s') : s.stored <+: s'.stored := by
  cases h with
  | deposit => exact List.prefix_append _ _
  | transfer => exact List.prefix_append _ _
  | withdraw => exact List.prefix_rfl

/-- what a step stores -/
theorem step_makes [ScalarRepr F] {W : PoolKnows F Pf} (hO : PoolOk p V W) (D : List (PK F × Spent F)) (stored : List F)
    (hnb : ∀ e ∈ D, ∀ n, ¬ SpendBreak p (stored.take n) e.1 e.2) {s s' : Pool F} {tx : Tx S P F K Pf G Hs Mp}
    (hstep : Pool.Step p V s tx s') (hd : ∀ e ∈ W.spends tx, e ∈ D) (hpre : s.stored <+: stored)
    (h1 : ∀ age note root hs, tx = Tx.transfer age note root hs → W.xfrW note 1 = 1) :
    s'.stored = s.stored ++ (W.makes tx).map (fun g => commitZ p g.1 g.2.pk g.2.blind g.2.amount g.2.ty) := by
  cases hstep with
  | deposit note hv =>
    obtain ⟨a, ty, -, -, -, -, e5⟩ := deposit_makes hO note hv
    rw [e5]
    rfl
  | transfer age note root hs hroot hsup hv hnd hnew =>
    have hh := transfer_honours hO D stored hnb s hpre age note root hs hd hroot hsup hv (h1 age note root hs rfl)
    simp only [hh.outputs, PoolKnows.makes, List.map_map]
    rfl
  | withdraw => simp [PoolKnows.makes]

/-- what is stored -/
theorem stored_makes [ScalarRepr F] {W : PoolKnows F Pf} (hO : PoolOk p V W) (D : List (PK F × Spent F)) (stored : List F)
    (hnb : ∀ e ∈ D, ∀ n, ¬ SpendBreak p (stored.take n) e.1 e.2)
    {txs : List (Tx S P F K Pf G Hs Mp)} {s : Pool F} (hrun : Pool.Run p V txs s) :
    (∀ tx ∈ txs, ∀ e ∈ W.spends tx, e ∈ D) → s.stored <+: stored →
    (∀ age note root hs, Tx.transfer age note root hs ∈ txs → W.xfrW note 1 = 1) →
    s.stored = (txs.flatMap W.makes).map (fun g => commitZ p g.1 g.2.pk g.2.blind g.2.amount g.2.ty) := by
  induction hrun with
  | nil => exact fun _ _ _ => rfl
  | @snoc txs s tx s' hr hstep ih =>
    intro hin hpre h1
    have hpre0 := (step_prefix hstep).trans hpre
    have ih := ih (fun tx h => hin tx (by simp [h])) hpre0 (fun age note root hs h => h1 age note root hs (by simp [h]))
    have hfm : (txs ++ [tx]).flatMap W.makes = txs.flatMap W.makes ++ W.makes tx := by simp
    rw [hfm, List.map_append, ← ih]
    exact step_makes hO D stored hnb hstep (hin tx (by simp)) hpre0 (fun age note root hs h => h1 age note root hs (by simp [h]))

/-- The accounts of a step, after nullifiers of the records at the positions `js`. -/
theorem step_accounts [ScalarRepr F] {W : PoolKnows F Pf} (hO : PoolOk p V W) (M : List (F × CommitIn F)) (O : List (SK F × CommitIn F))
    (D : List (PK F × Spent F)) (stored : List F) (hst : stored = M.map fun g => commitZ p g.1 g.2.pk g.2.blind g.2.amount g.2.ty)
    (hnc : ∀ y ∈ O, ∀ g ∈ M, ¬ Collides p (openCollision p g.1 g.2 y.2).1 (openCollision p g.1 g.2 y.2).2)
    (hnb : ∀ e ∈ D, ∀ n, ¬ SpendBreak p (stored.take n) e.1 e.2)
    (hkey : ∀ e ∈ O, ∀ e' ∈ O, e.2.pk = e'.2.pk → e.1 = e'.1) {s s' : Pool F} {tx : Tx S P F K Pf G Hs Mp}
    (hstep : Pool.Step p V s tx s') (ho : ∀ e ∈ W.opens V tx, e ∈ O) (hd : ∀ e ∈ W.spends tx, e ∈ D) (hpre0 : s.stored <+: stored)
    (h1 : ∀ age note root hs, tx = Tx.transfer age note root hs → W.xfrW note 1 = 1)
    (js : List Nat) (i2 : js.Nodup) (i3 : List.Forall₂ (NulAt p M O) s.nuls js) :
    ∃ js' : List Nat, (js ++ js').Nodup ∧ List.Forall₂ (NulAt p M O) s'.nuls (js ++ js') ∧
      ∀ t, ((W.makes tx).map (fun g => worth t g.2)).sum + withdrawn V t [tx] + fees V t [tx] =
        deposited V t [tx] + (js'.map (worthAt M t)).sum := by
  cases hstep with
  | deposit note hv =>
    obtain ⟨a, ty, e1, e2, e3, e4, e5⟩ := deposit_makes hO note hv
    refine ⟨[], by simpa using i2, by simpa using i3, fun t => ?_⟩
    have hu := units_worth hO.order V.conv.asNat t note.body.input a ty e1 e2
      (payeeVal (W.xIn note.body.proof) W.varsIn).pk (payeeVal (W.xIn note.body.proof) W.varsIn).blind
    rw [← e3, ← e4] at hu
    simp only [withdrawn, fees, deposited, PoolKnows.makes, List.map_cons, List.map_nil, List.sum_cons, List.sum_nil, hu, Payee.opening]
    omega
  | transfer age note root hs hroot hsup hv hnd hnew =>
    have hh := transfer_honours hO D stored hnb s hpre0 age note root hs hd hroot hsup hv (h1 age note root hs rfl)
    obtain ⟨js', k1, k2, k3⟩ := spend_many M O hnc hkey note.body.inputs (W.opens V (.transfer age note root hs : Tx S P F K Pf G Hs Mp))
      ho (by
        unfold PoolKnows.opens
        rw [List.forall₂_map_right_iff]
        refine hh.inputs.imp ?_
        rintro nul x ⟨j, g1, g2⟩
        exact ⟨j, by rw [← hst]; exact take_prefix hpre0 _ _ _ g1, g2⟩) s.nuls js i3 i2 hnd hnew
    refine ⟨js', k1, k2, fun t => ?_⟩
    have hb := hh.balance t
    rw [sum_worth t (fun s : Spent F => s.ty) (fun s => s.amount)
      (fun s => ⟨pkVal (W.xfrW note) (W.xfrVars note).pk, s.blind, s.amount, s.ty⟩) (fun _ => ⟨rfl, rfl⟩),
      sum_worth t (fun s : Payee F => s.ty) (fun s => s.amount) (fun s => s.opening) (fun _ => ⟨rfl, rfl⟩)] at hb
    have hk := k3 t
    simp only [PoolKnows.opens, List.map_map, Function.comp_def] at hk
    simp only [withdrawn, fees, deposited, PoolKnows.makes, List.map_cons, List.map_nil,
      List.sum_cons, List.sum_nil, List.map_map, Function.comp_def] at hb ⊢
    omega
  | withdraw age note root hs hroot hv hnew =>
    obtain ⟨ops, tr, r1, r2, r3, r4⟩ := hroot
    obtain ⟨dbg, modulus, wit, sp, pk, sk, b1, b2, b3, b4⟩ := hO.withdraw
    obtain ⟨a, ty, ch, e1, e2, -, hh⟩ := C77_abar_to_ar_conserves p hO.params V.conv V.fold V.parOut dbg hO.fold modulus b1 b2 wit sp
      b3 pk sk _ _ b4 _ hO.withdrawKnows note root hs hv V.codec ops r1 _ r2 tr r3 r4
    obtain ⟨j, g1, g2, -⟩ := hh.resolve_right (by
      intro hxb
      obtain ⟨m, hm⟩ := take_of_prefix hpre0 age
      rw [hm] at hxb
      exact hnb _ (hd (_, _) (by simp [PoolKnows.spends]; exact ⟨rfl, rfl⟩)) m hxb)
    have hop : W.opens V (.withdraw age note root hs : Tx S P F K Pf G Hs Mp) = [(skVal (W.xOut note.proof) W.varsOut.spend.sk,
        ⟨pkVal (W.xOut note.proof) W.varsOut.spend.pk, (spentVal (W.xOut note.proof) W.varsOut.spend.payer).blind, (a.toNat : F),
          (V.conv.asNat ty : F)⟩)] := by
      simp only [PoolKnows.opens, e1, e2]
    obtain ⟨js', k1, k2, k3⟩ := spend_many M O hnc hkey [note.input] (W.opens V (.withdraw age note root hs : Tx S P F K Pf G Hs Mp))
      ho (by
        rw [hop]
        exact .cons ⟨j, by rw [← hst]; exact take_prefix hpre0 _ _ _ g1, g2⟩ .nil) s.nuls js i3 i2 (by simp) (by simpa using hnew)
    refine ⟨js', k1, k2, fun t => ?_⟩
    have hu := units_worth hO.order V.conv.asNat t note.output a ty e1 e2 (pkVal (W.xOut note.proof) W.varsOut.spend.pk)
      (spentVal (W.xOut note.proof) W.varsOut.spend.payer).blind
    have hk := k3 t
    rw [hop] at hk
    simp only [List.map_cons, List.map_nil, List.sum_cons, List.sum_nil, ← hu] at hk
    simp only [withdrawn, fees, deposited, PoolKnows.makes, List.map_cons, List.map_nil,
      List.sum_cons, List.sum_nil]
    omega

/-- The accounts after each prefix of a run whose openings do not collide. -/
theorem accounts [ScalarRepr F] {W : PoolKnows F Pf} (hO : PoolOk p V W) (M : List (F × CommitIn F)) (O : List (SK F × CommitIn F))
    (D : List (PK F × Spent F)) (stored : List F) (hst : stored = M.map fun g => commitZ p g.1 g.2.pk g.2.blind g.2.amount g.2.ty)
    (hnc : ∀ y ∈ O, ∀ g ∈ M, ¬ Collides p (openCollision p g.1 g.2 y.2).1 (openCollision p g.1 g.2 y.2).2)
    (hnb : ∀ e ∈ D, ∀ n, ¬ SpendBreak p (stored.take n) e.1 e.2)
    (hkey : ∀ e ∈ O, ∀ e' ∈ O, e.2.pk = e'.2.pk → e.1 = e'.1)
    {txs : List (Tx S P F K Pf G Hs Mp)} {s : Pool F} (hrun : Pool.Run p V txs s) :
    (∀ tx ∈ txs, (∀ e ∈ W.opens V tx, e ∈ O) ∧ (∀ e ∈ W.spends tx, e ∈ D)) → s.stored <+: stored →
    (∀ age note root hs, Tx.transfer age note root hs ∈ txs → W.xfrW note 1 = 1) →
    ∃ js : List Nat, js.Nodup ∧ List.Forall₂ (NulAt p M O) s.nuls js ∧
      ∀ t, ((txs.flatMap W.makes).map (fun g => worth t g.2)).sum + withdrawn V t txs + fees V t txs =
        deposited V t txs + (js.map (worthAt M t)).sum := by
  induction hrun with
  | nil => exact fun _ _ _ => ⟨[], .nil, .nil, by simp [withdrawn, fees, deposited]⟩
  | @snoc txs s tx s' hr hstep ih =>
    intro hin hpre h1
    have hpre0 := (step_prefix hstep).trans hpre
    obtain ⟨js, i2, i3, i4⟩ := ih (fun tx h => hin tx (by simp [h])) hpre0
      (fun age note root hs h => h1 age note root hs (by simp [h]))
    obtain ⟨ho, hd⟩ := hin tx (by simp)
    obtain ⟨js', k1, k2, k3⟩ := step_accounts hO M O D stored hst hnc hnb hkey hstep ho hd hpre0
      (fun age note root hs h => h1 age note root hs (by simp [h])) js i2 i3
    refine ⟨js ++ js', k1, k2, fun t => ?_⟩
    have := i4 t
    have := k3 t
    simp only [withdrawn, fees, deposited, List.flatMap_append, List.flatMap_cons, List.flatMap_nil, List.append_nil, List.map_append,
      List.sum_append, List.map_cons, List.map_nil, List.sum_cons, List.sum_nil] at *
    omega

omit [Field F] [DecidableEq F] in
theorem sum_split (n : Nat) (js : List Nat) (hnd : js.Nodup) (hlt : ∀ j ∈ js, j < n) (f : Nat → Nat) :
    ((List.range n).map f).sum = (js.map f).sum + (((List.range n).filter (fun j => j ∉ js)).map f).sum := by
  rw [← List.sum_append, ← List.map_append]
  refine (List.Perm.map f ?_).sum_eq
  rw [List.perm_ext_iff_of_nodup List.nodup_range]
  · intro j
    simp only [List.mem_range, List.mem_append, List.mem_filter, decide_eq_true_eq]
    constructor
    · intro h
      by_cases hj : j ∈ js
      · exact .inl hj
      · exact .inr ⟨h, hj⟩
    · rintro (h | h)
      · exact hlt j h
      · exact h.1
  · rw [List.nodup_append]
    refine ⟨hnd, List.nodup_range.filter _, ?_⟩
    intro a ha b hb h
    subst h
    simp only [List.mem_filter, decide_eq_true_eq] at hb
    exact hb.2 ha

theorem sum_worthAt [ScalarRepr F] (M : List (F × CommitIn F)) (t : F) :
    ((List.range M.length).map (worthAt M t)).sum = (M.map (fun g => worth t g.2)).sum := by
  congr 1
  refine List.ext_getElem (by simp) ?_
  intro i h1 h2
  simp only [List.length_map, List.length_range] at h1
  simp [worthAt, h1]

/-- C100, the accounts of the pool.  For every run of the ledger: every stored commitment is made from the opening the extractor
reads, the nullifiers belong to pairwise different positions, and for every asset type the units deposited are the units
withdrawn, the fees, and the units in the records at the other positions; otherwise what the extractors read contains evidence
against the hash.  Missing, because the code does not have it: the circuit of the transfer does not fix its constant one
(hypothesis `h1`; `C100_inflation_violated` is what happens without it); the proof system has no extractor (`PoolOk`, C70); that a
public key has one secret key among the spends (`hkey`) is what the folding proof is for.  Confidential deposits and withdrawals
(bar_to_abar.rs, abar_to_bar.rs) are steps of the ledger of C103 (`PoolConf.lean`). -/
theorem C100_pool_accounts_partial [ScalarRepr F] {W : PoolKnows F Pf} (hO : PoolOk p V W) (txs : List (Tx S P F K Pf G Hs Mp)) (s : Pool F)
    (hrun : Pool.Run p V txs s) (h1 : ∀ age note root hs, Tx.transfer age note root hs ∈ txs → W.xfrW note 1 = 1)
    (hkey : ∀ e ∈ txs.flatMap (W.opens V), ∀ e' ∈ txs.flatMap (W.opens V), e.2.pk = e'.2.pk → e.1 = e'.1) :
    PoolBroken p V W txs s.stored ∨
    (s.stored = (txs.flatMap W.makes).map (fun g => commitZ p g.1 g.2.pk g.2.blind g.2.amount g.2.ty) ∧
      ∃ js : List Nat, js.Nodup ∧ js.length = s.nuls.length ∧ (∀ j ∈ js, j < s.stored.length) ∧
        ∀ t, deposited V t txs = withdrawn V t txs + fees V t txs +
          (((List.range s.stored.length).filter (fun j => j ∉ js)).map (worthAt (txs.flatMap W.makes) t)).sum) := by
  by_cases hb : PoolBroken p V W txs s.stored
  · exact .inl hb
  right
  unfold PoolBroken at hb
  push Not at hb
  have hst := stored_makes hO (txs.flatMap W.spends) s.stored hb.1 hrun
    (fun tx h e he => List.mem_flatMap.mpr ⟨tx, h, he⟩) List.prefix_rfl h1
  obtain ⟨js, k1, k2, k3⟩ := accounts hO _ _ (txs.flatMap W.spends) s.stored hst hb.2 hb.1 hkey hrun
    (fun tx h => ⟨fun e he => List.mem_flatMap.mpr ⟨tx, h, he⟩, fun e he => List.mem_flatMap.mpr ⟨tx, h, he⟩⟩) List.prefix_rfl h1
  have hlen : s.stored.length = (txs.flatMap W.makes).length := by rw [hst, List.length_map]
  have hlt : ∀ j ∈ js, j < s.stored.length := by
    intro j hj
    obtain ⟨i, hi, rfl⟩ := List.getElem_of_mem hj
    have q := List.forall₂_iff_get.mp k2
    obtain ⟨_, _, g, hg, _⟩ := q.2 i (q.1 ▸ hi) hi
    rw [List.get_eq_getElem] at hg
    rw [hlen]
    exact (List.getElem?_eq_some_iff.mp hg).1
  refine ⟨hst, js, k1, k2.length_eq.symm, hlt, fun t => ?_⟩
  have h3 := k3 t
  have h4 := sum_split s.stored.length js k1 hlt (worthAt (txs.flatMap W.makes) t)
  rw [← sum_worthAt, ← hlen, h4] at h3
  omega

/-- C100: for every run of the ledger and every asset type, the units paid out and the fees are at most the units put in; otherwise
what the extractors read contains evidence against the hash.  What is missing is said at `C100_pool_accounts_partial`. -/
theorem C100_pool_conserves_partial [ScalarRepr F] {W : PoolKnows F Pf} (hO : PoolOk p V W) (txs : List (Tx S P F K Pf G Hs Mp)) (s : Pool F)
    (hrun : Pool.Run p V txs s) (h1 : ∀ age note root hs, Tx.transfer age note root hs ∈ txs → W.xfrW note 1 = 1)
    (hkey : ∀ e ∈ txs.flatMap (W.opens V), ∀ e' ∈ txs.flatMap (W.opens V), e.2.pk = e'.2.pk → e.1 = e'.1) :
    PoolBroken p V W txs s.stored ∨ ∀ t, withdrawn V t txs + fees V t txs ≤ deposited V t txs := by
  rcases C100_pool_accounts_partial hO txs s hrun h1 hkey with h | ⟨-, js, -, -, -, h⟩
  · exact .inl h
  · exact .inr fun t => by rw [h t]; omega

end

end Verif.Anon
