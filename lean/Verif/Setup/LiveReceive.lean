import Verif.Setup.Live
import Verif.Anon.Receive

/-!
C111: what is received in the pool can be spent with the parameters as they are shipped: C108 with the circuits of setup, the PLONK prover with the key
of setup, and the verifier with the key it loads from the files of `gen-params`.
-/

namespace Verif.Setup

open Verif.Poly Verif.Plonk Verif.Snark Verif.Anon
open Verif.Anon.Spec
open Verif.AnonCreds (Pairing)

section
variable {G1 G2 Gt : Type} [AddCommGroup G1] [Module Fr G1] [AddCommGroup G2] [Module Fr G2] [AddCommGroup Gt] [Module Fr Gt]
  [DecidableEq Gt] {AT Ep K : Type} [DecidableEq K] [AddCommGroup Ep] [AddCommGroup K] {X : AnonExt Fr AT Ep K}
  {S : Xfr.Types} {Q : SimFr.Params} {SigKey G Hs Mp : Type}

/-- C111, deposits of transparent records: unless the challenge `gamma` falls into a set of at most `5 * 511` elements that is fixed before, the note
is made and accepted, and its record is one of the owner that can be spent. -/
theorem C111_deposit (hX : AnonLaws X) {P : Pairing Fr G1 G2 Gt} (hP : NonDegenerate P) {E : Env Fr G1 G2} {d : Nat} {s : Fr}
    (H : HonestEnv P E d s) (hd : 32770 ≤ d) (B : Bin (VerifierParams Fr G1 G2)) (hB : B.Lawful) (pk0 : Anon.PK Fr) (file : Bytes)
    (hfile : genConversion B (E.proverLast (arToAbarCs Rescue.blsParams pk0)) = .ok file) (q' : Res (ProverParams Fr G1 G2))
    (sign : SigKey → Bytes → Res S.Sg) (Z : ConvExt S Q Fr (Pars G1 G2) (Snark.Proof G1 Fr))
    (ser : ArToAbarBody S Fr (Snark.Proof G1 Fr) → Option Bytes) (hser : ∀ b, ∃ m, ser b = some m) (rec : OpenRec S Q)
    (ho : rec.bar.amount = .plain rec.amount ∧ rec.bar.assetType = .plain rec.ty) (key : SigKey)
    (hsig : ∀ m, ∃ sig, sign key m = .ok sig ∧ Z.sigVerify rec.bar.publicKey m sig = true)
    (sk : Nat) (o : OpenAbar Fr AT K) (hmade : MadeFor X sk o) (m : AMemo K) (hm : o.memo = some m) (ha : o.amount = rec.amount)
    (hty : X.asScalar o.ty = (Z.asNat rec.ty : Fr)) (stored : List Fr) (coins : Coins Fr) (hc : GoodCoins coins) :
    ∃ q w, E.proverLast (arToAbarCs Rescue.blsParams pk0) = .ok q ∧ loadConversion B (some file) q' = .ok w ∧
    ∃ (online : List Fr) (cmW : List G1) (bad : Fr → Finset Fr), (∀ beta, (bad beta).card ≤ 5 * 511) ∧
    ∀ O : Source G1, (drawn O q (start arToAbarLabel) online cmW).2 ∉ bad (drawn O q (start arToAbarLabel) online cmW).1 →
      ∃ note, (liveProver E O coins sign).genArToAbar Rescue.blsParams (liveExt P O Z) ser (q, w) rec key (X.words o.pub) o.blind (X.memoWire m) =
          .ok note ∧ (liveExt P O Z).verifyArToAbar ser (q, w) note = .ok () ∧
        ∃ x, X.memoRead note.body.memo = some x.memo ∧ x.abar = note.body.output ∧ x.uid = stored.length ∧
          Addressed Rescue.blsParams X (stored ++ [note.body.output]) sk x o := by
  obtain ⟨q, w, h1, h2, online, cmW, bad, h3, h4⟩ := C94_ar_to_abar hP H hd B hB pk0 file hfile q' sign Z ser hser rec ho key hsig (X.words o.pub)
    o.blind (X.memoWire m) coins hc
  refine ⟨q, w, h1, h2, online, cmW, bad, h3, fun O hO => ?_⟩
  obtain ⟨note, n1, n2, -, n3, n4⟩ := (h4 O).2 hO
  rw [← ha, ← hty] at n3
  refine ⟨note, n1, n2, ⟨stored.length, note.body.output, m⟩, ?_, rfl, rfl, ?_⟩
  · rw [n4, AnonExt.memoRead, AnonExt.memoWire, hX.memo.k_rt]
    rfl
  · rw [n3]
    exact stored_last hX stored sk o m hmade hm

section
variable [AddCommGroup S.G] [DecidableEq S.G] [Module (ZMod SimFr.ristretto.r) S.G]

/-- C111, deposits of confidential records. -/
theorem C111_deposit_confidential (hX : AnonLaws X) {P : Pairing Fr G1 G2 Gt} (hP : NonDegenerate P) {E : Env Fr G1 G2} {d : Nat} {s : Fr}
    (H : HonestEnv P E d s) (hd : 32770 ≤ d) (B : Bin (VerifierParams Fr G1 G2)) (hB : B.Lawful) (dbg : Bool) (pk0 : Anon.PK Fr) (file : Bytes)
    (hfile : genConversion B (E.proverFirst (barToAbarCs Rescue.blsParams dbg SimFr.ristretto pk0)) = .ok file) (q' : Res (ProverParams Fr G1 G2))
    (sign : SigKey → Bytes → Res S.Sg) (Z : ConvExt S SimFr.ristretto Fr (Pars G1 G2) (Snark.Proof G1 Fr))
    (ser : BarToAbarBody S SimFr.ristretto Fr (Snark.Proof G1 Fr) → Option Bytes) (hser : ∀ b, ∃ m, ser b = some m)
    (rec : OpenRec S SimFr.ristretto) (hkind : bothPlain rec.bar = false) (ho : (RecOpening.ofRec Z rec).Opens Z rec.bar) (key : SigKey) (pub : S.PK)
    (hsig : ∀ m, ∃ sig, sign key m = .ok sig ∧ Z.sigVerify pub m sig = true)
    (rand : List (ZMod SimFr.ristretto.r × ZMod SimFr.ristretto.r)) (hr : rand.length = 2) (r : Fr)
    (sk : Nat) (o : OpenAbar Fr AT K) (hmade : MadeFor X sk o) (m : AMemo K) (hm : o.memo = some m) (ha : o.amount = rec.amount)
    (hty : X.asScalar o.ty = (Z.asNat rec.ty : Fr)) (stored : List Fr) (coins : Coins Fr) (hc : GoodCoins coins) :
    ∃ q w, E.proverFirst (barToAbarCs Rescue.blsParams dbg SimFr.ristretto pk0) = .ok q ∧ loadConversion B (some file) q' = .ok w ∧
    ∃ (online : List Fr) (cmW : List G1) (bad : Fr → Finset Fr), (∀ beta, (bad beta).card ≤ 5 * 2047) ∧
    ∀ O : Source G1, (drawn O q (start barToAbarLabel) online cmW).2 ∉ bad (drawn O q (start barToAbarLabel) online cmW).1 →
      ∃ note, (liveProver E O coins sign).genBarToAbar Rescue.blsParams (liveExt P O Z) dbg ser (q, w) rec key (X.words o.pub) o.blind
          (X.memoWire m) rand r = .ok note ∧ (liveExt P O Z).verifyBarToAbar ser (q, w) note pub = .ok () ∧
        ∃ x, X.memoRead note.body.memo = some x.memo ∧ x.abar = note.body.output ∧ x.uid = stored.length ∧
          Addressed Rescue.blsParams X (stored ++ [note.body.output]) sk x o := by
  obtain ⟨q, w, h1, h2, online, cmW, bad, h3, h4⟩ := C94_bar_to_abar hP H hd B hB dbg pk0 file hfile q' sign Z ser hser rec hkind ho key pub hsig
    (X.words o.pub) o.blind (X.memoWire m) rand hr r coins hc
  refine ⟨q, w, h1, h2, online, cmW, bad, h3, fun O hO => ?_⟩
  obtain ⟨note, n1, n2, -, n3, n4⟩ := (h4 O).2 hO
  rw [← ha, ← hty] at n3
  refine ⟨note, n1, n2, ⟨stored.length, note.body.output, m⟩, ?_, rfl, rfl, ?_⟩
  · rw [n4, AnonExt.memoRead, AnonExt.memoWire, hX.memo.k_rt]
    rfl
  · rw [n3]
    exact stored_last hX stored sk o m hmade hm

end

section
variable [AddCommGroup G] [DecidableEq G] [Module (ZMod SimFr.secq256k1.r) G]

/-- C111, payments to transparent records: whatever happened to the tree since, the owner finds the record in it with the secret key and what is
published, and pays it out. -/
theorem C111_pay_out (hX : AnonLaws X) {P : Pairing Fr G1 G2 Gt} (hP : NonDegenerate P) {E : Env Fr G1 G2} {d : Nat} {s : Fr}
    (H : HonestEnv P E d s) (hd : 32770 ≤ d) (B : Bin (VerifierParams Fr G1 G2)) (hB : B.Lawful) (dbg : Bool) (file : Bytes)
    (hfile : genConversion B (E.proverLast (abarToArCs Rescue.blsParams dbg SimFr.secq256k1 secpOrderBytes 20)) = .ok file)
    (q' : Res (ProverParams Fr G1 G2)) (sign : SigKey → Bytes → Res S.Sg) (Z : ConvExt S Q Fr (Pars G1 G2) (Snark.Proof G1 Fr))
    (Y : FoldExt SimFr.secq256k1 Fr G Hs Mp) (M : FoldProver SimFr.secq256k1 Fr G Hs Mp)
    (c : Merkle.Codec Fr) (ops : List (Merkle.Op Fr)) (hcap : Merkle.adds ops ≤ 3 ^ 20) (stored : List Fr)
    (hst : (Merkle.Spec.run ops).cur = leavesOf Rescue.blsParams stored) (sk : Nat)
    (hk : (X.coord (X.fromSecret sk).pub).1 < SimFr.secq256k1.r ∧ (X.coord (X.fromSecret sk).pub).2 < SimFr.secq256k1.r ∧
      sk < SimFr.secq256k1.r ∧ sk < ofLE secpOrderBytes)
    (x : Parcel Fr K) (o : OpenAbar Fr AT K) (hx : Addressed Rescue.blsParams X stored sk x o) (ty : S.AT)
    (hty : X.asScalar o.ty = (Z.asNat ty : Fr)) (key : S.PK) (h : Hs) (hM : M.Complete Y abarToArFoldLabel h (X.foldKey (X.fromSecret sk)))
    (rand : List (ZMod SimFr.secq256k1.r × ZMod SimFr.secq256k1.r)) (hr : rand.length = 3) (r : Fr) (coins : Coins Fr) (hc : GoodCoins coins) :
    ∃ t root i, Merkle.runTree c (treeHash Rescue.blsParams) ops = some t ∧ t.getRoot c = some root ∧
      X.receive Rescue.blsParams c t (X.fromSecret sk) x = some i ∧
    ∃ q w, E.proverLast (abarToArCs Rescue.blsParams dbg SimFr.secq256k1 secpOrderBytes 20) = .ok q ∧ loadConversion B (some file) q' = .ok w ∧
    ∃ (online : List Fr) (cmW : List G1) (bad : Fr → Finset Fr), (∀ beta, (bad beta).card ≤ 5 * 8191) ∧
    ∀ O : Source G1, (drawn O q (start abarToArLabel) online cmW).2 ∉ bad (drawn O q (start abarToArLabel) online cmW).1 →
      ∃ note, (liveProver E O coins sign).genAbarToAr Rescue.blsParams (liveExt P O Z) Y M dbg secpOrderBytes (q, w) ((info i).uid.toNat : Fr)
          i.blind (info i).path (info i).root i.amount ty key (X.foldKey (X.fromSecret sk)) h rand r = .ok note ∧
        (liveExt P O Z).verifyAbarToAr Y (q, w) note root h = .ok () ∧ note.output = ⟨.plain o.amount, .plain ty, key⟩ := by
  obtain ⟨t, root, ht, hroot, i, e1, e2, -, e4, e5, e6, e7, e8⟩ := C108_received hX c ops hcap stored hst sk x o hx
  subst e2
  rw [addressed_pub hx] at e8
  obtain ⟨q, w, h1, h2, online, cmW, bad, h3, h4⟩ := C94_abar_to_ar hP H hd B hB dbg file hfile q' sign Z Y M ((info i).uid.toNat : Fr) i.blind
    (info i).path e6 e7 root i.amount ty key (X.foldKey (X.fromSecret sk)) hk (by rw [← hty]; exact e8) h hM rand hr r coins hc
  refine ⟨t, root, i, ht, hroot, e1, q, w, h1, h2, online, cmW, bad, h3, fun O hO => ?_⟩
  obtain ⟨note, n1, n2, -, n3⟩ := (h4 O).2 hO
  exact ⟨note, by rw [e5]; exact n1, n2, n3⟩

section
variable [AddCommGroup S.G] [DecidableEq S.G] [Module (ZMod SimFr.ristretto.r) S.G]

/-- C111, payments to confidential records. -/
theorem C111_pay_out_confidential (hX : AnonLaws X) {P : Pairing Fr G1 G2 Gt} (hP : NonDegenerate P) {E : Env Fr G1 G2} {d : Nat} {s : Fr}
    (H : HonestEnv P E d s) (hd : 32770 ≤ d) (B : Bin (VerifierParams Fr G1 G2)) (hB : B.Lawful) (dbg : Bool) (file : Bytes)
    (hfile : genConversion B (E.proverLast (abarToBarCs Rescue.blsParams dbg SimFr.secq256k1 SimFr.ristretto secpOrderBytes 20)) = .ok file)
    (q' : Res (ProverParams Fr G1 G2)) (sign : SigKey → Bytes → Res S.Sg) (Z : ConvExt S SimFr.ristretto Fr (Pars G1 G2) (Snark.Proof G1 Fr))
    (Y : FoldExt SimFr.secq256k1 Fr G Hs Mp) (M : FoldProver SimFr.secq256k1 Fr G Hs Mp)
    (c : Merkle.Codec Fr) (ops : List (Merkle.Op Fr)) (hcap : Merkle.adds ops ≤ 3 ^ 20) (stored : List Fr)
    (hst : (Merkle.Spec.run ops).cur = leavesOf Rescue.blsParams stored) (sk : Nat)
    (hk : (X.coord (X.fromSecret sk).pub).1 < SimFr.secq256k1.r ∧ (X.coord (X.fromSecret sk).pub).2 < SimFr.secq256k1.r ∧
      sk < SimFr.secq256k1.r ∧ sk < ofLE secpOrderBytes)
    (x : Parcel Fr K) (o : OpenAbar Fr AT K) (hx : Addressed Rescue.blsParams X stored sk x o)
    (rec : OpenRec S SimFr.ristretto) (hkind : bothPlain rec.bar = false) (ho : (RecOpening.ofRec Z rec).Opens Z rec.bar)
    (ha : o.amount = rec.amount) (hty : X.asScalar o.ty = (Z.asNat rec.ty : Fr)) (h : Hs)
    (hM : M.Complete Y abarToBarFoldLabel h (X.foldKey (X.fromSecret sk))) (rand : List (ZMod SimFr.secq256k1.r × ZMod SimFr.secq256k1.r))
    (hr : rand.length = 3) (r : Fr) (irand : List (ZMod SimFr.ristretto.r × ZMod SimFr.ristretto.r)) (hir : irand.length = 2) (ir : Fr)
    (coins : Coins Fr) (hc : GoodCoins coins) :
    ∃ t root i, Merkle.runTree c (treeHash Rescue.blsParams) ops = some t ∧ t.getRoot c = some root ∧
      X.receive Rescue.blsParams c t (X.fromSecret sk) x = some i ∧
    ∃ q w, E.proverLast (abarToBarCs Rescue.blsParams dbg SimFr.secq256k1 SimFr.ristretto secpOrderBytes 20) = .ok q ∧
      loadConversion B (some file) q' = .ok w ∧
    ∃ (online : List Fr) (cmW : List G1) (bad : Fr → Finset Fr), (∀ beta, (bad beta).card ≤ 5 * 8191) ∧
    ∀ O : Source G1, (drawn O q (start abarToBarLabel) online cmW).2 ∉ bad (drawn O q (start abarToBarLabel) online cmW).1 →
      ∃ note, (liveProver E O coins sign).genAbarToBar Rescue.blsParams (liveExt P O Z) Y M dbg secpOrderBytes (q, w) ((info i).uid.toNat : Fr)
          i.blind (info i).path (info i).root rec (X.foldKey (X.fromSecret sk)) h rand r irand ir = .ok note ∧
        (liveExt P O Z).verifyAbarToBar Y (q, w) note root h = .ok () ∧ note.output = rec.bar := by
  obtain ⟨t, root, ht, hroot, i, e1, e2, -, e4, e5, e6, e7, e8⟩ := C108_received hX c ops hcap stored hst sk x o hx
  subst e2
  rw [addressed_pub hx] at e8
  obtain ⟨q, w, h1, h2, online, cmW, bad, h3, h4⟩ := C94_abar_to_bar hP H hd B hB dbg file hfile q' sign Z Y M ((info i).uid.toNat : Fr) i.blind
    (info i).path e6 e7 root rec hkind ho (X.foldKey (X.fromSecret sk)) hk (by rw [← hty, ← ha]; exact e8) h hM rand hr r irand hir ir coins hc
  refine ⟨t, root, i, ht, hroot, e1, q, w, h1, h2, online, cmW, bad, h3, fun O hO => ?_⟩
  obtain ⟨note, n1, n2, -, n3⟩ := (h4 O).2 hO
  exact ⟨note, by rw [e5]; exact n1, n2, n3⟩

end

variable [DecidableEq AT]

/-- C111, transfers: up to six records that the wallet received are spent together, and the records of the note are ones that their owners can spend. -/
theorem C111_transfer (hX : AnonLaws X) {P : Pairing Fr G1 G2 Gt} (hP : NonDegenerate P) {E E' : Env Fr G1 G2} {d : Nat} {s : Fr}
    (H : HonestEnv P E d s) (hd : 32770 ≤ d) (B : FileBins Fr G1 G2) (hB : B.common.Lawful) (hB' : B.specific.Lawful) (hB'' : B.table.Lawful)
    (dbg : Bool) (feeType : AT) (circuit' : Nat → Nat → Nat → Option (CS Fr)) (common specific : Bytes)
    (hfiles : E.genTransfer B (transferCs Rescue.blsParams dbg SimFr.secq256k1 secpOrderBytes (X.asScalar feeType)) = .ok (common, specific))
    (Y : FoldExt SimFr.secq256k1 Fr G Hs Mp) (M : FoldProver SimFr.secq256k1 Fr G Hs Mp)
    (c : Merkle.Codec Fr) (ops : List (Merkle.Op Fr)) (hcap : Merkle.adds ops ≤ 3 ^ 20) (stored : List Fr)
    (hst : (Merkle.Spec.run ops).cur = leavesOf Rescue.blsParams stored) (sk : Nat) (hs : sk < 2 ^ 256)
    (hk : (X.coord (X.fromSecret sk).pub).1 < SimFr.secq256k1.r ∧ (X.coord (X.fromSecret sk).pub).2 < SimFr.secq256k1.r ∧
      sk < SimFr.secq256k1.r ∧ sk < ofLE secpOrderBytes)
    (xs : List (Parcel Fr K)) (os : List (OpenAbar Fr AT K)) (hxs : List.Forall₂ (Addressed Rescue.blsParams X stored sk) xs os)
    (outs : List (OpenAbarAt Fr AT K)) (fee : UInt32) (hne : xs ≠ []) (hne' : outs ≠ []) (h6 : xs.length ≤ 6) (h6' : outs.length ≤ 6)
    (hmemo : ∀ o ∈ outs, o.memo.isSome)
    (htot : ∀ t, (∃ r ∈ os ++ outs.map (·.toOpenAbar), r.ty = t) → heldTotal t (os.map (fun o => ⟨o.ty, o.amount.toNat⟩)) =
      heldTotal t (outs.map (·.held)) + if t = feeType then fee.toNat else 0)
    (hfee : ∃ o ∈ os, o.ty = feeType) (hin : ∀ i ∈ os, i.ty ≠ feeType → ∃ o ∈ outs, o.ty = i.ty)
    (hout : ∀ o ∈ outs, ∃ i ∈ os, i.ty = o.ty) (hinj : ∀ i ∈ os, ∀ j ∈ os, X.asScalar i.ty = X.asScalar j.ty → i.ty = j.ty)
    (h : Hs) (hM : M.Complete Y xfrFoldLabel h (X.foldKey (X.fromSecret sk)))
    (rand : List (ZMod SimFr.secq256k1.r × ZMod SimFr.secq256k1.r)) (hr : rand.length = 3) (r : Fr) (coins : Coins Fr) (hc : GoodCoins coins) :
    ∃ t root ins, Merkle.runTree c (treeHash Rescue.blsParams) ops = some t ∧ t.getRoot c = some root ∧
      xs.mapM (X.receive Rescue.blsParams c t (X.fromSecret sk)) = some ins ∧
    ∃ pre q w, X.initXfr Rescue.blsParams feeType ins outs fee (X.fromSecret sk) = .ok pre ∧
      E.proverFirst (transferCs Rescue.blsParams dbg SimFr.secq256k1 secpOrderBytes (X.asScalar feeType) xs.length outs.length 20) = .ok q ∧
      E'.load B circuit' (some common) (some specific) xs.length outs.length = .ok w ∧
    ∃ (online : List Fr) (cmW : List G1) (bad : Fr → Finset Fr), (∀ beta, (bad beta).card ≤ 5 * (w.cs.size - 1)) ∧ w.cs.size ≤ 2 ^ 15 ∧
    ∀ O : Source G1, (drawn O q (startXfr (xfrTranscript xs.length outs.length)) online cmW).2 ∉
        bad (drawn O q (startXfr (xfrTranscript xs.length outs.length)) online cmW).1 →
      ∃ note, X.finishXfr Rescue.blsParams (liveXfrProver E O coins) Y M dbg secpOrderBytes feeType (q, w) pre h rand r = .ok note ∧
        (liveXfrExt P O).verifyNote Y (q, w) note root h = .ok () ∧ note.body.inputs.length = xs.length ∧
        note.body.outputs.length = outs.length ∧
        ∀ j o sk', outs[j]? = some o → MadeFor X sk' o.toOpenAbar → ∃ x, x.uid = stored.length + j ∧ note.body.outputs[j]? = some x.abar ∧
          note.body.memos[j]? = some x.memo ∧ Addressed Rescue.blsParams X (stored ++ note.body.outputs) sk' x o.toOpenAbar := by
  obtain ⟨t, root, ht, hroot, hall⟩ := C108_all_received hX c ops hcap stored hst sk
  obtain ⟨ins, e1, e2, e3, e4⟩ := hall xs os hxs
  have hlen : ins.length = xs.length := by simpa using congrArg List.length e3
  have hmem : ∀ i ∈ ins, i.toOpenAbar ∈ os := fun i hi => e2 ▸ List.mem_map.mpr ⟨i, hi, rfl⟩
  have hmem' : ∀ o ∈ os, ∃ i ∈ ins, i.toOpenAbar = o := fun o ho => by
    rw [← e2] at ho
    exact List.mem_map.mp ho
  have hheld : ins.map (·.held) = os.map (fun o => (⟨o.ty, o.amount.toNat⟩ : Held AT)) := by
    rw [← e2, List.map_map]
    rfl
  obtain ⟨pre, q, w, n1, n2, n3, online, cmW, bad, n4, n5, n6⟩ := C94_transfer (E' := E') hP H hd B hB hB' hB'' dbg X feeType circuit' common specific
    hfiles Y M ins outs fee (X.fromSecret sk) (by omega) h6' hX.coord_lt hs hk
    ⟨fun e => hne (List.length_eq_zero_iff.mp (by rw [← hlen, e]; rfl)), hne', fun i hi => ⟨(e4 i hi).2.1, (e4 i hi).1⟩, by
      intro ty hty
      rw [hheld]
      refine htot ty ?_
      obtain ⟨q, hq, rfl⟩ := hty
      rcases List.mem_append.mp hq with hq | hq
      · exact ⟨q.toOpenAbar, List.mem_append_left _ (hmem q hq), rfl⟩
      · exact ⟨q.toOpenAbar, List.mem_append_right _ (List.mem_map.mpr ⟨q, hq, rfl⟩), rfl⟩,
      fun i hi j hj => (e4 i hi).2.2.1.trans (e4 j hj).2.2.1.symm, hmemo⟩ root
    (fun i hi => ⟨(e4 i hi).2.2.1, (e4 i hi).2.2.2.1, (e4 i hi).2.2.2.2.1, by rw [← (e4 i hi).1]; exact (e4 i hi).2.2.2.2.2⟩)
    (by obtain ⟨o, h1, h2⟩ := hfee; obtain ⟨i, hi, rfl⟩ := hmem' o h1; exact ⟨i, hi, h2⟩)
    (fun i hi hty => hin _ (hmem i hi) hty)
    (fun o h1 => by obtain ⟨q, h2, h3⟩ := hout o h1; obtain ⟨i, hi, rfl⟩ := hmem' q h2; exact ⟨i, hi, h3⟩)
    (fun i hi j hj e => hinj _ (hmem i hi) _ (hmem j hj) e) h hM rand hr r coins hc
  rw [hlen] at n2 n3 n6
  refine ⟨t, root, ins, ht, hroot, e1, pre, q, w, n1, n2, n3, online, cmW, bad, n4, n5, fun O hO => ?_⟩
  obtain ⟨note, m1, m2, m3, m4, -, m5⟩ := (n6 O).2 hO
  exact ⟨note, m1, m2, by rw [m3, List.length_map, hlen], by rw [m4, List.length_map], outs_addressed hX stored outs hmemo note.body m4 m5⟩

end

end

end Verif.Setup
