import Verif.Anon.ConvertGen
import Verif.Anon.XfrNoteGen

/-!
C108: what is received can be spent.  A wallet learns of a record what the ledger publishes: its commitment, the memo and the place in the
tree.  From these and its secret key it makes the input of the next note.
-/

namespace Verif.Anon

open Verif.Plonk Verif.Plonk.Spec Verif.SimFr Verif.SimFr.Spec Verif.StateComm Verif.Anon.Spec
open Verif.DelegatedSchnorr (Tr Msg)

/-- what the ledger publishes of a record -/
structure Parcel (F K : Type) where
  uid : Nat
  abar : F
  memo : AMemo K

section
variable {F AT Ep K : Type} [Field F] [ScalarRepr F] [DecidableEq F] [DecidableEq AT] [DecidableEq K] [AddCommGroup Ep] [AddCommGroup K]
variable (p : Rescue.Params F) (X : AnonExt F AT Ep K)

/-- models `build_mt_leaf_info_from_proof`, api/tests/smoke_axfr.rs:86-104, which users of the two libraries copy -/
def placeOf (pr : Merkle.Proof F) (uid : Nat) : LeafInfo F :=
  ⟨pr.nodes.map mtNode, pr.root, UInt64.ofNat pr.rootVersion, UInt64.ofNat uid⟩

/-- what a wallet does with a published record, api/tests/smoke_axfr.rs:212-240: `OpenAnonAssetRecordBuilder::from_abar`, `mt_leaf_info` and
`build` (structs.rs:158-205) with the proof of `generate_proof` -/
def AnonExt.receive (c : Merkle.Codec F) (t : Merkle.Tree) (kp : AKeyPair K) (x : Parcel F K) : Option (OpenAbarAt F AT K) := do
  let o ← X.fromAbar p x.abar x.memo kp
  let pr ← t.generateProof c x.uid
  let o ← buildAbar o
  pure ⟨o, some (placeOf pr x.uid)⟩

namespace Spec

/-- `o` is made by the builder for the key of `sk`, whatever the amount, the type and the random choices -/
def MadeFor (sk : Nat) (o : OpenAbar F AT K) : Prop :=
  ∃ amount ty b0 blind n, (X.finalize blind n ⟨amount, ty, b0, (X.fromSecret sk).pub, none⟩).bind buildAbar = some o

/-- `x` is the record `o` for the key of `sk`, stored under its uid among the commitments `stored` -/
def Addressed (stored : List F) (sk : Nat) (x : Parcel F K) (o : OpenAbar F AT K) : Prop :=
  MadeFor X sk o ∧ o.memo = some x.memo ∧ X.commitment p o = some x.abar ∧ stored[x.uid]? = some x.abar

/-- `i` is the record `o` with a place under `root` that the circuit takes -/
def Placed (root : F) (uid : Nat) (o : OpenAbar F AT K) (i : OpenAbarAt F AT K) : Prop :=
  i.toOpenAbar = o ∧ i.leaf.isSome ∧ (info i).uid.toNat = uid ∧ (info i).root = root ∧ (info i).path.length = 20 ∧
    (∀ n ∈ (info i).path, GoodNode n) ∧ payerRoot p (X.words o.pub) (X.payerOf i) = root

end Spec

variable {p X}

omit [DecidableEq AT] in
/-- C108: at any later time, whatever else was stored, committed or lost, the wallet recovers the record with a place under the current root. -/
theorem C108_received (hX : AnonLaws X) (c : Merkle.Codec F) (ops : List (Merkle.Op F)) (hcap : Merkle.adds ops ≤ 3 ^ 20) (stored : List F)
    (hst : (Merkle.Spec.run ops).cur = leavesOf p stored) (sk : Nat) (x : Parcel F K) (o : OpenAbar F AT K) (h : Addressed p X stored sk x o) :
    ∃ t root, Merkle.runTree c (treeHash p) ops = some t ∧ t.getRoot c = some root ∧
      ∃ i, X.receive p c t (X.fromSecret sk) x = some i ∧ Placed p X root x.uid o i := by
  obtain ⟨⟨amount, ty, b0, blind, n, hm⟩, hmemo, hcom, hat⟩ := h
  obtain ⟨-, -, -, m, com, e1, e2, -, e3⟩ := C54_round_trip X p hX sk amount ty b0 blind n o hm
  obtain rfl := Option.some.inj (hmemo.symm.trans e1)
  obtain rfl := Option.some.inj (hcom.symm.trans e2)
  have hlt : x.uid < stored.length := by
    by_contra hge
    rw [List.getElem?_eq_none (by omega)] at hat
    cases hat
  obtain ⟨t, pr, ht, hpr, hver, hroot, huid, hlen⟩ := Merkle.C02_membership_proofs c (treeHash p) ops hcap x.uid (leafHash p (x.uid : F) x.abar) (by
    rw [hst, leavesOf, List.getElem?_mapIdx, hat]
    rfl)
  have hu : x.uid < 2 ^ 64 := by
    have h1 : stored.length = (Merkle.Spec.run ops).cur.length := by rw [hst, leavesOf, List.length_mapIdx]
    obtain ⟨-, -, -, h2⟩ := Merkle.sim_run c (treeHash p) ops hcap
    have := h2.1
    have h3 : (3 : Nat) ^ 20 < 2 ^ 64 := by norm_num
    omega
  obtain ⟨o', f1, f2⟩ := Option.bind_eq_some_iff.mp e3
  refine ⟨t, pr.root, ht, hroot, ⟨o, some (placeOf pr x.uid)⟩, ?_, rfl, rfl, ?_, rfl, by simp [info, placeOf, hlen], ?_, ?_⟩
  · unfold AnonExt.receive
    simp only [f1, hpr, f2, Option.bind_eq_bind, Option.bind_some, Option.pure_def]
  · simpa [info, placeOf] using hu
  · intro nd hn
    obtain ⟨q, -, rfl⟩ := List.mem_map.mp hn
    exact goodNode_mtNode q
  · unfold Merkle.verify at hver
    simp only [decide_eq_true_eq] at hver
    have hw : commit p (X.words o.pub) o.blind (o.amount.toNat : F) (X.asScalar o.ty) = x.abar := by
      have := hcom
      unfold AnonExt.commitment at this
      rw [C72_public_scalars X o.pub (hX.coord_lt _).1 (hX.coord_lt _).2] at this
      exact Option.some.inj this
    unfold payerRoot AnonExt.payerOf
    simp only [info, Option.getD_some, placeOf, List.foldl_map, C53_native_agrees, UInt64.toNat_ofNat', Nat.mod_eq_of_lt hu, hw]
    exact hver

omit [DecidableEq F] [DecidableEq AT] [AddCommGroup Ep] in
/-- C108: a record stays addressed to its owner while the tree grows. -/
theorem C108_addressed_later (stored later : List F) (sk : Nat) (x : Parcel F K) (o : OpenAbar F AT K) (h : Addressed p X stored sk x o) :
    Addressed p X (stored ++ later) sk x o := by
  obtain ⟨h1, h2, h3, h4⟩ := h
  refine ⟨h1, h2, h3, ?_⟩
  rw [List.getElem?_append_left (by
    by_contra hge
    rw [List.getElem?_eq_none (by omega)] at h4
    cases h4)]
  exact h4

omit [DecidableEq F] [DecidableEq AT] [AddCommGroup Ep] in
theorem addressed_pub {stored : List F} {sk : Nat} {x : Parcel F K} {o : OpenAbar F AT K} (h : Addressed p X stored sk x o) :
    o.pub = (X.fromSecret sk).pub := by
  obtain ⟨⟨amount, ty, b0, blind, n, hm⟩, -⟩ := h
  obtain ⟨o', hf, hb⟩ := Option.bind_eq_some_iff.mp hm
  unfold AnonExt.finalize at hf
  simp only [Option.isSome_none, Bool.false_eq_true, if_false] at hf
  obtain ⟨⟨pt, ct⟩, -, hf⟩ := Option.bind_eq_some_iff.mp hf
  unfold buildAbar at hb
  split at hb
  · cases hb
  · split at hb
    · cases hb
    · rw [← Option.some.inj hb, ← Option.some.inj hf]

omit [DecidableEq AT] in
/-- C108: all the records of a wallet are received, with places under one root. -/
theorem C108_all_received (hX : AnonLaws X) (c : Merkle.Codec F) (ops : List (Merkle.Op F)) (hcap : Merkle.adds ops ≤ 3 ^ 20) (stored : List F)
    (hst : (Merkle.Spec.run ops).cur = leavesOf p stored) (sk : Nat) :
    ∃ t root, Merkle.runTree c (treeHash p) ops = some t ∧ t.getRoot c = some root ∧
      ∀ (xs : List (Parcel F K)) (os : List (OpenAbar F AT K)), List.Forall₂ (Addressed p X stored sk) xs os →
      ∃ ins, xs.mapM (X.receive p c t (X.fromSecret sk)) = some ins ∧ ins.map (·.toOpenAbar) = os ∧
        ins.map (fun i => (info i).uid.toNat) = xs.map (·.uid) ∧
        ∀ i ∈ ins, i.pub = (X.fromSecret sk).pub ∧ i.leaf.isSome ∧ (info i).root = root ∧ (info i).path.length = 20 ∧
          (∀ n ∈ (info i).path, GoodNode n) ∧ payerRoot p (X.words i.pub) (X.payerOf i) = root := by
  obtain ⟨t, ht, hroot⟩ := Merkle.C03_root_is_tree_root c (treeHash p) ops hcap
  refine ⟨t, _, ht, hroot, fun xs os h => ?_⟩
  induction h with
  | nil => exact ⟨[], rfl, rfl, rfl, fun i hi => by cases hi⟩
  | @cons x o xs os h1 _ ih =>
    obtain ⟨ins, e1, e2, e3, e4⟩ := ih
    obtain ⟨t', root', ht', hroot', i, f1, f2, f3, f4, f5, f6, f7, f8⟩ := C108_received hX c ops hcap stored hst sk x o h1
    obtain rfl := Option.some.inj (ht.symm.trans ht')
    have hr := Option.some.inj (hroot.symm.trans hroot')
    refine ⟨i :: ins, ?_, ?_, ?_, ?_⟩
    · rw [List.mapM_cons, f1]
      simp only [Option.bind_eq_bind, Option.bind_some, e1, Option.pure_def]
    · rw [List.map_cons, f2, e2]
    · rw [List.map_cons, f4, e3, List.map_cons]
    · intro j hj
      rcases List.mem_cons.mp hj with rfl | hj
      · subst f2
        exact ⟨addressed_pub h1, f3, f5.trans hr.symm, f6, f7, f8.trans hr.symm⟩
      · exact e4 j hj

omit [DecidableEq F] [DecidableEq AT] in
theorem outs_addressed (hX : AnonLaws X) (stored : List F) (outs : List (OpenAbarAt F AT K)) (hmemo : ∀ o ∈ outs, o.memo.isSome) (body : XfrBody F K)
    (h1 : body.outputs = outs.map (fun o => commit p (X.words o.pub) o.blind (o.amount.toNat : F) (X.asScalar o.ty)))
    (h2 : body.memos = outs.filterMap (·.memo)) :
    ∀ j o sk', outs[j]? = some o → MadeFor X sk' o.toOpenAbar → ∃ x, x.uid = stored.length + j ∧ body.outputs[j]? = some x.abar ∧
      body.memos[j]? = some x.memo ∧ Addressed p X (stored ++ body.outputs) sk' x o.toOpenAbar := by
  intro j o sk' hj hmade
  obtain ⟨m, hom⟩ := Option.isSome_iff_exists.mp (hmemo o (List.mem_of_getElem? hj))
  have hmm : body.memos[j]? = some m := by
    have : outs.filterMap (·.memo) = outs.map (fun o => o.memo.getD ⟨0, []⟩) := by
      clear hj h1 h2 hmade
      induction outs with
      | nil => rfl
      | cons a l ih =>
        obtain ⟨m', hm'⟩ := Option.isSome_iff_exists.mp (hmemo a (by simp))
        rw [List.filterMap_cons, hm', List.map_cons, hm', Option.getD_some, ih (fun o ho => hmemo o (by simp [ho]))]
    rw [h2, this, List.getElem?_map, hj, Option.map_some, hom, Option.getD_some]
  have hoo : body.outputs[j]? = some (commit p (X.words o.pub) o.blind (o.amount.toNat : F) (X.asScalar o.ty)) := by
    rw [h1, List.getElem?_map, hj]
    rfl
  refine ⟨⟨stored.length + j, _, m⟩, rfl, hoo, hmm, hmade, hom, ?_, ?_⟩
  · unfold AnonExt.commitment
    rw [C72_public_scalars X o.pub (hX.coord_lt _).1 (hX.coord_lt _).2]
    rfl
  · rw [List.getElem?_append_right (by simp), Nat.add_sub_cancel_left]
    exact hoo

variable {P : SimFr.Params} {Par Pf G Hs Mp : Type} [Fact P.r.Prime] [AddCommGroup G] [DecidableEq G] [Module (ZMod P.r) G]

/-- C108, transfers: The owner of records of the tree, who has nothing but the secret key and what the ledger published, makes a note for
every balanced payment from all of them, with keys made from the circuit of so many payers and payees; the note is accepted under the root
of the tree.  When its outputs are stored, every output that was made by the builder is addressed to its owner with the memo of the note,
so that the theorem applies to it. -/
theorem C108_transfer (hX : AnonLaws X) (hp : GoodParams p) (ho : 2 ^ 64 ≤ ScalarRepr.order F) (dbg : Bool) (hP : FoldOk P F) (hbits : P.bits ≤ 254)
    (modulus : Bytes) (hm : modulus.length = 32) (V : XfrProver F Par Pf) (E : XfrExt F Par Pf) (Y : FoldExt P F G Hs Mp)
    (M : FoldProver P F G Hs Mp) (par : Par) (wit : FoldWitness P F) (hwit : wit.Consistent) (payers' : List (Payer F))
    (payees' : List (Payee F)) (pk' : PK F) (sk' : SK F) (fee' : F) (feeType : AT) (vars : XfrVars FoldVars) (cs : CS F)
    (hb : buildMultiXfr p (foldingCircuit p dbg P modulus wit) payers' payees' pk' sk' fee' (X.asScalar feeType) CS.new = some (vars, cs))
    (hV : ∀ tr (cs' : CS F), cs'.shape = cs.shape → cs'.value 1 = 1 → Sat cs' cs'.value cs'.online →
      ∃ pf, V.prove par tr cs'.witness = .ok pf ∧ E.plonk par tr cs'.online pf = true)
    (c : Merkle.Codec F) (ops : List (Merkle.Op F)) (hcap : Merkle.adds ops ≤ 3 ^ 20) (stored : List F)
    (hst : (Merkle.Spec.run ops).cur = leavesOf p stored) (sk : Nat) (hs : sk < 2 ^ 256)
    (hk : (X.coord (X.fromSecret sk).pub).1 < P.r ∧ (X.coord (X.fromSecret sk).pub).2 < P.r ∧ sk < P.r ∧ sk < ofLE modulus)
    (xs : List (Parcel F K)) (os : List (OpenAbar F AT K)) (hxs : List.Forall₂ (Addressed p X stored sk) xs os)
    (outs : List (OpenAbarAt F AT K)) (fee : UInt32) (hne : xs ≠ []) (hne' : outs ≠ []) (hmemo : ∀ o ∈ outs, o.memo.isSome)
    (htot : ∀ t, (∃ r ∈ os ++ outs.map (·.toOpenAbar), r.ty = t) → heldTotal t (os.map (fun o => ⟨o.ty, o.amount.toNat⟩)) =
      heldTotal t (outs.map (·.held)) + if t = feeType then fee.toNat else 0)
    (hfee : ∃ o ∈ os, o.ty = feeType) (hin : ∀ i ∈ os, i.ty ≠ feeType → ∃ o ∈ outs, o.ty = i.ty)
    (hout : ∀ o ∈ outs, ∃ i ∈ os, i.ty = o.ty) (hinj : ∀ i ∈ os, ∀ j ∈ os, X.asScalar i.ty = X.asScalar j.ty → i.ty = j.ty)
    (hl : payers'.map (fun s => s.path.length) = xs.map (fun _ => 20)) (hl' : payees'.length = outs.length)
    (h : Hs) (hM : M.Complete Y xfrFoldLabel h (X.foldKey (X.fromSecret sk))) (rand : List (ZMod P.r × ZMod P.r)) (hr : rand.length = 3) (r : F) :
    ∃ t root ins pre note, Merkle.runTree c (treeHash p) ops = some t ∧ t.getRoot c = some root ∧
      xs.mapM (X.receive p c t (X.fromSecret sk)) = some ins ∧ X.initXfr p feeType ins outs fee (X.fromSecret sk) = .ok pre ∧
      X.finishXfr p V Y M dbg modulus feeType par pre h rand r = .ok note ∧ E.verifyNote Y par note root h = .ok () ∧
      note.body.inputs.length = xs.length ∧ note.body.outputs.length = outs.length ∧
      ∀ j o sk', outs[j]? = some o → MadeFor X sk' o.toOpenAbar → ∃ x, x.uid = stored.length + j ∧ note.body.outputs[j]? = some x.abar ∧
        note.body.memos[j]? = some x.memo ∧ Addressed p X (stored ++ note.body.outputs) sk' x o.toOpenAbar := by
  obtain ⟨t, root, ht, hroot, hall⟩ := C108_all_received hX c ops hcap stored hst sk
  obtain ⟨ins, e1, e2, e3, e4⟩ := hall xs os hxs
  have hlen : ins.length = xs.length := by simpa using congrArg List.length e3
  have hmem : ∀ i ∈ ins, i.toOpenAbar ∈ os := fun i hi => e2 ▸ List.mem_map.mpr ⟨i, hi, rfl⟩
  have hmem' : ∀ o ∈ os, ∃ i ∈ ins, i.toOpenAbar = o := fun o ho => by
    rw [← e2] at ho
    exact List.mem_map.mp ho
  have hheld : ins.map (·.held) = os.map (fun o => (⟨o.ty, o.amount.toNat⟩ : Held AT)) := by
    rw [← e2, List.map_map]
    rfl
  obtain ⟨pre, note, n1, n2, n3, n4, n5, n6, n7⟩ := C84_transfer_complete p X hp ho dbg hP hbits modulus hm V E Y M par wit hwit payers' payees' pk' sk'
    fee' feeType vars cs hb hV ins outs fee (X.fromSecret sk) hX.coord_lt hs hk
    ⟨fun e => hne (List.length_eq_zero_iff.mp (by rw [← hlen, e]; rfl)), hne', fun i hi => ⟨(e4 i hi).2.1, (e4 i hi).1⟩, by
      intro ty hty
      rw [hheld]
      refine htot ty ?_
      obtain ⟨q, hq, rfl⟩ := hty
      rcases List.mem_append.mp hq with hq | hq
      · exact ⟨q.toOpenAbar, List.mem_append_left _ (hmem q hq), rfl⟩
      · exact ⟨q.toOpenAbar, List.mem_append_right _ (List.mem_map.mpr ⟨q, hq, rfl⟩), rfl⟩,
      fun i hi j hj => (e4 i hi).2.2.1.trans (e4 j hj).2.2.1.symm, hmemo⟩ root
    (fun i hi => ⟨(e4 i hi).2.2.1, (e4 i hi).2.2.2.2.1, by rw [← (e4 i hi).1]; exact (e4 i hi).2.2.2.2.2⟩)
    (by obtain ⟨o, h1, h2⟩ := hfee; obtain ⟨i, hi, rfl⟩ := hmem' o h1; exact ⟨i, hi, h2⟩)
    (fun i hi hty => hin _ (hmem i hi) hty)
    (fun o h1 => by obtain ⟨q, h2, h3⟩ := hout o h1; obtain ⟨i, hi, rfl⟩ := hmem' q h2; exact ⟨i, hi, h3⟩)
    (fun i hi j hj e => hinj _ (hmem i hi) _ (hmem j hj) e)
    (by
      rw [hl, List.map_congr_left (g := fun _ => 20) (fun i hi => (e4 i hi).2.2.2.1), List.map_const', List.map_const', hlen]) hl' h hM rand hr r
  exact ⟨t, root, ins, pre, note, ht, hroot, e1, n1, n2, n3, by rw [n4, List.length_map, hlen], by rw [n5, List.length_map],
    outs_addressed hX stored outs hmemo note.body n5 n7⟩

end

section
variable {S : Xfr.Types} {Q P : SimFr.Params} {F Par Pf SigKey Ep K G Hs Mp AT : Type} [Field F] [ScalarRepr F] [DecidableEq F] [DecidableEq K]
  [AddCommGroup Ep] [AddCommGroup K] {p : Rescue.Params F} {X : AnonExt F AT Ep K}

/-- the memo of a conversion note: the point in its compressed form and the ciphertext (`AxfrOwnerMemo`, structs.rs:309-316) -/
def AnonExt.memoWire (X : AnonExt F AT Ep K) (m : AMemo K) : Bytes × Bytes := (X.kCompress m.point, m.ctext)

/-- the memo that is read -/
def AnonExt.memoRead (X : AnonExt F AT Ep K) (b : Bytes × Bytes) : Option (AMemo K) := (X.kDecompress b.1).map (⟨·, b.2⟩)

omit [DecidableEq F] in
theorem stored_last (hX : AnonLaws X) (stored : List F) (sk : Nat) (o : OpenAbar F AT K) (m : AMemo K) (hmade : MadeFor X sk o) (hm : o.memo = some m) :
    Addressed p X (stored ++ [commit p (X.words o.pub) o.blind (o.amount.toNat : F) (X.asScalar o.ty)]) sk
      ⟨stored.length, commit p (X.words o.pub) o.blind (o.amount.toNat : F) (X.asScalar o.ty), m⟩ o := by
  refine ⟨hmade, hm, ?_, by simp⟩
  unfold AnonExt.commitment
  rw [C72_public_scalars X o.pub (hX.coord_lt _).1 (hX.coord_lt _).2]
  rfl

/-- C108, deposits: a note that turns a transparent record into one that the builder made is accepted, and when its output is stored the new
record is addressed to its owner with the memo of the note. -/
theorem C108_deposit (hX : AnonLaws X) (hp : GoodParams p) (V : ConvProver S F Par Pf SigKey) (E : ConvExt S Q F Par Pf)
    (ser : ArToAbarBody S F Pf → Option Bytes) (hser : ∀ b, ∃ m, ser b = some m) (par : Par)
    (t : Payee F) (vars : PayeeVars) (cs : CS F) (hb : buildArToAbar p t CS.new = some (vars, cs))
    (hV : Completes V E par arToAbarLabel cs) (rec : OpenRec S Q)
    (ho : rec.bar.amount = .plain rec.amount ∧ rec.bar.assetType = .plain rec.ty) (key : SigKey)
    (hsig : ∀ m, ∃ sig, V.sign key m = .ok sig ∧ E.sigVerify rec.bar.publicKey m sig = true)
    (sk : Nat) (o : OpenAbar F AT K) (hmade : MadeFor X sk o) (m : AMemo K) (hm : o.memo = some m) (ha : o.amount = rec.amount)
    (hty : X.asScalar o.ty = (E.asNat rec.ty : F)) (stored : List F) :
    ∃ note, V.genArToAbar p E ser par rec key (X.words o.pub) o.blind (X.memoWire m) = .ok note ∧ E.verifyArToAbar ser par note = .ok () ∧
      ∃ x, X.memoRead note.body.memo = some x.memo ∧ x.abar = note.body.output ∧ x.uid = stored.length ∧
        Addressed p X (stored ++ [note.body.output]) sk x o := by
  obtain ⟨note, h1, h2, -, h3, h4⟩ := C80_ar_to_abar_complete p hp V E ser hser par t vars cs hb hV rec ho key hsig (X.words o.pub) o.blind
    (X.memoWire m)
  rw [← ha, ← hty] at h3
  refine ⟨note, h1, h2, ⟨stored.length, note.body.output, m⟩, ?_, rfl, rfl, ?_⟩
  · rw [h4, AnonExt.memoRead, AnonExt.memoWire, hX.memo.k_rt]
    rfl
  · rw [h3]
    exact stored_last hX stored sk o m hmade hm

section
variable [Fact Q.r.Prime] [AddCommGroup S.G] [DecidableEq S.G] [Module (ZMod Q.r) S.G]

/-- C108, deposits of confidential records. -/
theorem C108_deposit_confidential (hX : AnonLaws X) (hp : GoodParams p) (dbg : Bool) (hq : InspOk Q F) (hQ : 2 ^ 240 ≤ Q.r)
    (V : ConvProver S F Par Pf SigKey) (E : ConvExt S Q F Par Pf)
    (ser : BarToAbarBody S Q F Pf → Option Bytes) (hser : ∀ b, ∃ m, ser b = some m) (par : Par)
    (t : Payee F) (wit : InspWitness Q F) (hwit : wit.Consistent) (vars : BarVars F) (cs : CS F)
    (hb : buildBarToAbar p dbg Q t wit CS.new = some (vars, cs)) (hV : Completes V E par barToAbarLabel cs)
    (rec : OpenRec S Q) (hkind : bothPlain rec.bar = false) (ho : (RecOpening.ofRec E rec).Opens E rec.bar) (key : SigKey) (pub : S.PK)
    (hsig : ∀ m, ∃ sig, V.sign key m = .ok sig ∧ E.sigVerify pub m sig = true)
    (rand : List (ZMod Q.r × ZMod Q.r)) (hr : rand.length = 2) (r : F)
    (sk : Nat) (o : OpenAbar F AT K) (hmade : MadeFor X sk o) (m : AMemo K) (hm : o.memo = some m) (ha : o.amount = rec.amount)
    (hty : X.asScalar o.ty = (E.asNat rec.ty : F)) (stored : List F) :
    ∃ note, V.genBarToAbar p E dbg ser par rec key (X.words o.pub) o.blind (X.memoWire m) rand r = .ok note ∧
      E.verifyBarToAbar ser par note pub = .ok () ∧
      ∃ x, X.memoRead note.body.memo = some x.memo ∧ x.abar = note.body.output ∧ x.uid = stored.length ∧
        Addressed p X (stored ++ [note.body.output]) sk x o := by
  obtain ⟨note, h1, h2, -, h3, h4⟩ := C80_bar_to_abar_complete p hp dbg hq hQ V E ser hser par t wit hwit vars cs hb hV rec hkind ho key pub hsig
    (X.words o.pub) o.blind (X.memoWire m) rand hr r
  rw [← ha, ← hty] at h3
  refine ⟨note, h1, h2, ⟨stored.length, note.body.output, m⟩, ?_, rfl, rfl, ?_⟩
  · rw [h4, AnonExt.memoRead, AnonExt.memoWire, hX.memo.k_rt]
    rfl
  · rw [h3]
    exact stored_last hX stored sk o m hmade hm

end

variable [Fact P.r.Prime] [AddCommGroup G] [DecidableEq G] [Module (ZMod P.r) G]

/-- C108, paying out: The owner of a record of the tree, who has nothing but the secret key and what the ledger published, pays its amount out
to any ordinary key. -/
theorem C108_pay_out (hX : AnonLaws X) (hp : GoodParams p) (dbg : Bool) (hP : FoldOk P F) (hbits : P.bits ≤ 254) (modulus : Bytes)
    (hm : modulus.length = 32) (V : ConvProver S F Par Pf SigKey) (E : ConvExt S Q F Par Pf) (Y : FoldExt P F G Hs Mp)
    (M : FoldProver P F G Hs Mp) (par : Par) (wit : FoldWitness P F) (hwit : wit.Consistent) (s : Payer F) (hs : s.path.length = 20)
    (pk0 : PK F) (sk0 : SK F) (vars : AbarVars FoldVars) (cs : CS F)
    (hb : buildAbarToAr p (foldingCircuit p dbg P modulus wit) s pk0 sk0 CS.new = some (vars, cs))
    (hV : Completes V E par abarToArLabel cs)
    (c : Merkle.Codec F) (ops : List (Merkle.Op F)) (hcap : Merkle.adds ops ≤ 3 ^ 20) (stored : List F)
    (hst : (Merkle.Spec.run ops).cur = leavesOf p stored) (sk : Nat)
    (hk : (X.coord (X.fromSecret sk).pub).1 < P.r ∧ (X.coord (X.fromSecret sk).pub).2 < P.r ∧ sk < P.r ∧ sk < ofLE modulus)
    (x : Parcel F K) (o : OpenAbar F AT K) (hx : Addressed p X stored sk x o) (ty : S.AT) (hty : X.asScalar o.ty = (E.asNat ty : F)) (key : S.PK)
    (h : Hs) (hM : M.Complete Y abarToArFoldLabel h (X.foldKey (X.fromSecret sk))) (rand : List (ZMod P.r × ZMod P.r)) (hr : rand.length = 3)
    (r : F) :
    ∃ t root i note, Merkle.runTree c (treeHash p) ops = some t ∧ t.getRoot c = some root ∧ X.receive p c t (X.fromSecret sk) x = some i ∧
      V.genAbarToAr p E Y M dbg modulus par ((info i).uid.toNat : F) i.blind (info i).path (info i).root i.amount ty key
        (X.foldKey (X.fromSecret sk)) h rand r = .ok note ∧ E.verifyAbarToAr Y par note root h = .ok () ∧
      note.output = ⟨.plain o.amount, .plain ty, key⟩ := by
  obtain ⟨t, root, ht, hroot, i, e1, e2, -, e4, e5, e6, e7, e8⟩ := C108_received hX c ops hcap stored hst sk x o hx
  subst e2
  rw [addressed_pub hx] at e8
  obtain ⟨note, h1, h2, -, h3⟩ := C80_abar_to_ar_complete p hp dbg hP hbits modulus hm V E Y M par wit hwit s pk0 sk0 vars cs hb hV
    ((info i).uid.toNat : F) i.blind (info i).path (e6.trans hs.symm) e7 root i.amount ty key (X.foldKey (X.fromSecret sk)) hk
    (by rw [← hty]; exact e8) h hM rand hr r
  exact ⟨t, root, i, note, ht, hroot, e1, by rw [e5]; exact h1, h2, h3⟩

section
variable [Fact Q.r.Prime] [AddCommGroup S.G] [DecidableEq S.G] [Module (ZMod Q.r) S.G]

/-- C108, paying out to a confidential record `rec` that was built for the amount and type of the record. -/
theorem C108_pay_out_confidential (hX : AnonLaws X) (hp : GoodParams p) (dbg : Bool) (hP : FoldOk P F) (hbits : P.bits ≤ 254) (hq : InspOk Q F)
    (hQ : 2 ^ 240 ≤ Q.r) (modulus : Bytes)
    (hm : modulus.length = 32) (V : ConvProver S F Par Pf SigKey) (E : ConvExt S Q F Par Pf) (Y : FoldExt P F G Hs Mp)
    (M : FoldProver P F G Hs Mp) (par : Par) (wit : FoldWitness P F) (hwit : wit.Consistent) (insp : InspWitness Q F)
    (hinsp : insp.Consistent) (s : Payer F) (hs : s.path.length = 20) (pk0 : PK F) (sk0 : SK F) (vars : AbarBarVars F FoldVars) (cs : CS F)
    (hb : buildAbarToBar p (foldingCircuit p dbg P modulus wit) dbg Q s pk0 sk0 insp CS.new = some (vars, cs))
    (hV : Completes V E par abarToBarLabel cs)
    (c : Merkle.Codec F) (ops : List (Merkle.Op F)) (hcap : Merkle.adds ops ≤ 3 ^ 20) (stored : List F)
    (hst : (Merkle.Spec.run ops).cur = leavesOf p stored) (sk : Nat)
    (hk : (X.coord (X.fromSecret sk).pub).1 < P.r ∧ (X.coord (X.fromSecret sk).pub).2 < P.r ∧ sk < P.r ∧ sk < ofLE modulus)
    (x : Parcel F K) (o : OpenAbar F AT K) (hx : Addressed p X stored sk x o)
    (rec : OpenRec S Q) (hkind : bothPlain rec.bar = false) (ho : (RecOpening.ofRec E rec).Opens E rec.bar) (ha : o.amount = rec.amount)
    (hty : X.asScalar o.ty = (E.asNat rec.ty : F)) (h : Hs)
    (hM : M.Complete Y abarToBarFoldLabel h (X.foldKey (X.fromSecret sk))) (rand : List (ZMod P.r × ZMod P.r)) (hr : rand.length = 3) (r : F)
    (irand : List (ZMod Q.r × ZMod Q.r)) (hir : irand.length = 2) (ir : F) :
    ∃ t root i note, Merkle.runTree c (treeHash p) ops = some t ∧ t.getRoot c = some root ∧ X.receive p c t (X.fromSecret sk) x = some i ∧
      V.genAbarToBar p E Y M dbg modulus par ((info i).uid.toNat : F) i.blind (info i).path (info i).root rec
        (X.foldKey (X.fromSecret sk)) h rand r irand ir = .ok note ∧ E.verifyAbarToBar Y par note root h = .ok () ∧ note.output = rec.bar := by
  obtain ⟨t, root, ht, hroot, i, e1, e2, -, e4, e5, e6, e7, e8⟩ := C108_received hX c ops hcap stored hst sk x o hx
  subst e2
  rw [addressed_pub hx] at e8
  obtain ⟨note, h1, h2, -, h3⟩ := C80_abar_to_bar_complete p hp dbg hP hbits hq hQ modulus hm V E Y M par wit hwit insp hinsp s pk0 sk0 vars cs hb hV
    ((info i).uid.toNat : F) i.blind (info i).path (e6.trans hs.symm) e7 root rec hkind ho (X.foldKey (X.fromSecret sk)) hk
    (by rw [← hty, ← ha]; exact e8) h hM rand hr r irand hir ir
  exact ⟨t, root, i, note, ht, hroot, e1, by rw [e5]; exact h1, h2, h3⟩

end

end

end Verif.Anon
