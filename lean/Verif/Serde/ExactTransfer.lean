import Verif.Serde.Exact

/-!
C115 for ordinary transfers and for the notes that lead out of the pool, in MessagePack, the format in which all of them are read back.
-/

namespace Verif.Serde

open Verif.Xfr (Types XfrAmount XfrAssetType BlindAssetRecord XfrBody XfrNote)
open Verif.Anon (AbarToArNote AbarToBarNote FoldInst)

local macro "blen" : tactic => `(tactic| first | omega | (beta_reduce; omega))

/-! ### Ordinary transfers: a plus before the public amounts -/

section
variable (F : Format) {S : Types} (L : Leaves S) (sg : S.Sg → Bytes)

/-- an amount, if public with a plus -/
def plusAmount : XfrAmount S → Bytes
  | .conf lo hi => serAmount F L (.conf lo hi)
  | .plain a => F.variant true 1 nonConfName ++ F.str (43 :: decimal a.toNat)

/-- a record with such an amount -/
def plusBar (r : BlindAssetRecord S) : Bytes :=
  F.tuple 3 ++ (plusAmount F L r.amount ++ (serAssetType F L r.assetType ++ F.bytes (L.pk r.publicKey)))

/-- what follows the records in a body -/
def serXfrTail (b : XfrBody S) : Bytes :=
  (F.tuple 2 ++ (serAmountProof F L b.amountProof ++
      (F.tuple 3 ++ (serVec F (fun p => serPeg F (L.tpf p)) b.tracingProofs ++
        (serIdentity F L b.inputsIdentityProofs ++ serIdentity F L b.outputsIdentityProofs))))) ++
    (serVec F (serVec F (serTracerMemo F L)) b.tracingMemos ++ serVec F (serOption F (fun m => serMemo F (L.om m))) b.ownersMemos)

/-- a note with such records -/
def plusNote (n : XfrNote S) : Bytes :=
  F.tuple 2 ++ ((F.tuple 5 ++ (serVec F (plusBar F L) n.body.inputs ++ (serVec F (plusBar F L) n.body.outputs ++ serXfrTail F L n.body))) ++
    (F.tuple 1 ++ serVec F (fun s => F.bytes (sg s)) n.signatures))

end

/-- one more character is one more byte in a short string -/
theorem rmp_str_succ {d : Bytes} (c : UInt8) (h : d.length < 31) : (rmp.str (c :: d)).length = (rmp.str d).length + 1 := by
  simp only [rmp, List.length_append, List.length_cons, rmpStrLen, if_pos (show d.length + 1 < 32 by omega),
    if_pos (show d.length < 32 by omega), List.length_nil]
  omega

theorem decimal_short (a : UInt64) : (decimal a.toNat).length < 31 := by
  have ha := a.toNat_lt
  unfold decimal
  split_ifs with h
  · simp
  · rw [List.length_map, List.length_reverse]
    have := (Nat.digits_length_le_iff (b := 10) (k := 20) (by norm_num) a.toNat).mpr (by omega)
    omega

theorem length_vec_le {α : Type} {f g : α → Bytes} (h : ∀ x, (f x).length ≤ (g x).length ∧ (g x).length ≤ (f x).length + 1) (l : List α) :
    (l.flatMap f).length ≤ (l.flatMap g).length ∧ (l.flatMap g).length ≤ (l.flatMap f).length + l.length := by
  induction l with
  | nil => simp
  | cons a l ih =>
    have := h a
    simp only [List.flatMap_cons, List.length_append, List.length_cons]
    omega

theorem length_vec_lt {α : Type} {f g : α → Bytes} (h : ∀ x, (f x).length ≤ (g x).length) {l : List α} {a : α} (ha : a ∈ l)
    (hlt : (f a).length < (g a).length) : (l.flatMap f).length < (l.flatMap g).length := by
  induction l with
  | nil => cases ha
  | cons b l ih =>
    have hb := h b
    simp only [List.flatMap_cons, List.length_append]
    rcases List.mem_cons.mp ha with rfl | ha
    · have : (l.flatMap f).length ≤ (l.flatMap g).length := by
        clear ih ha
        induction l with
        | nil => simp
        | cons c l ih =>
          have := h c
          simp only [List.flatMap_cons, List.length_append]
          omega
      omega
    · have := ih ha
      omega

section
variable {S : Types} {L : Leaves S} {sg : S.Sg → Bytes} {R : Parse S} (hR : R.Of L sg)

theorem plusBar_length (b : BlindAssetRecord S) :
    (serBar rmp L b).length ≤ (plusBar rmp L b).length ∧ (plusBar rmp L b).length ≤ (serBar rmp L b).length + 1 ∧
      (∀ a, b.amount = .plain a → (serBar rmp L b).length < (plusBar rmp L b).length) := by
  obtain ⟨a, t, k⟩ := b
  cases a with
  | conf lo hi => exact ⟨le_refl _, Nat.le_succ _, fun a h => by cases h⟩
  | plain a =>
    have e := rmp_str_succ 43 (decimal_short a)
    simp only [plusBar, serBar, plusAmount, serAmount, List.length_append, e]
    exact ⟨by omega, by omega, fun _ _ => by omega⟩

include hR

theorem reads_plusBar : Reads (plusBar rmp L) (readBar rmpIn R) := by
  rintro ⟨a, t, k⟩ r h
  cases a with
  | conf lo hi => exact reads_bar rmp_paired hR ⟨.conf lo hi, t, k⟩ r h
  | plain a =>
    simp only [plusBar, plusAmount, List.length_append] at h
    simp only [plusBar, plusAmount, readBar, readAmount, List.append_assoc]
    rw [bind_of (rmp_paired.tuple _ _ (by norm_num))]
    have key : readAmount rmpIn R (rmp.variant true 1 nonConfName ++ (rmp.str (43 :: decimal a.toNat) ++
        (serAssetType rmp L t ++ (rmp.bytes (L.pk k) ++ r)))) = .ok (.plain a, serAssetType rmp L t ++ (rmp.bytes (L.pk k) ++ r)) := by
      simp only [readAmount]
      rw [bind_of (reads_nonConf rmp_paired _), if_neg (by norm_num), bind_of (rmp_paired.str _ _ (by omega)),
        bind_of (lift_ok (by rw [parseU64_plus]; rfl) _), pure_of]
    simp only [readAmount] at key
    rw [bind_of key, bind_of (reads_assetType rmp_paired hR _ _ (by blen)), bind_of (reads_leaf rmp_paired hR.pk k _ (by blen)), pure_of]

omit hR in
theorem nonNil_plusBar : NonNil (plusBar rmp L) := fun p h => by
  simp only [plusBar, List.append_eq_nil_iff] at h
  exact nonNil_bytes rmp_lawful _ h.2.2.2

theorem reads_plusNote (n : XfrNote S) (r : Bytes) (h : (plusNote rmp L sg n).length < 2 ^ 32) :
    readXfrNote rmpIn R (plusNote rmp L sg n ++ r) = .ok (n, r) := by
  obtain ⟨⟨a1, a2, a3, a4, a5, a6, a7, a8⟩, s⟩ := n
  have hF := rmp_lawful
  have hP := rmp_paired
  simp only [plusNote, serXfrTail, List.length_append] at h
  simp only [plusNote, serXfrTail, readXfrNote, List.append_assoc]
  rw [bind_of (hP.tuple _ _ (by norm_num))]
  have hb : readXfrBody rmpIn R (rmp.tuple 5 ++ (serVec rmp (plusBar rmp L) a1 ++ (serVec rmp (plusBar rmp L) a2 ++
      (rmp.tuple 2 ++ (serAmountProof rmp L a3 ++ (rmp.tuple 3 ++ (serVec rmp (fun p => serPeg rmp (L.tpf p)) a4 ++
        (serIdentity rmp L a5 ++ (serIdentity rmp L a6 ++ (serVec rmp (serVec rmp (serTracerMemo rmp L)) a7 ++
          (serVec rmp (serOption rmp (fun m => serMemo rmp (L.om m))) a8 ++ (rmp.tuple 1 ++
            (serVec rmp (fun s => rmp.bytes (sg s)) s ++ r))))))))))))) =
      .ok (⟨a1, a2, a3, a4, a5, a6, a7, a8⟩, rmp.tuple 1 ++ (serVec rmp (fun s => rmp.bytes (sg s)) s ++ r)) := by
    simp only [readXfrBody]
    rw [bind_of (hP.tuple _ _ (by norm_num)), bind_of (reads_vec hP nonNil_plusBar (reads_plusBar hR) _ _ (by blen)),
      bind_of (reads_vec hP nonNil_plusBar (reads_plusBar hR) _ _ (by blen)), bind_of (hP.tuple _ _ (by norm_num)),
      bind_of (reads_amountProof hP hR _ _ (by blen)), bind_of (hP.tuple _ _ (by norm_num)),
      bind_of (reads_vec hP (fun _ => nonNil_peg hF _) (reads_map (reads_peg hP) hR.tpf) a4 _ (by blen)),
      bind_of (reads_identity hF hP hR _ _ (by blen)), bind_of (reads_identity hF hP hR _ _ (by blen)),
      bind_of (reads_vec hP (nonNil_vec hF) (reads_vec hP (nonNil_tracerMemo hF) (reads_tracerMemo hF hP hR)) _ _ (by blen)),
      bind_of (reads_vec_of (rd := readOwnerMemo rmpIn R) hP (nonNil_option hF (fun _ => nonNil_memo hF _)) a8 _
        (fun o _ r hl => reads_ownerMemo hP hR o r (fun m _ r hl => reads_memo R.b64 (L.om m) r hl) hl) (by blen)), pure_of]
  rw [bind_of hb, bind_of (hP.tuple _ _ (by norm_num)),
    bind_of (reads_vec hP (fun _ => nonNil_bytes hF _) (reads_leaf hP hR.sg) s _ (by blen)), pure_of]

/-- C115 is violated: Every transfer note with a public amount is read from a second byte string, in which the public amounts start with
a plus. -/
theorem C115_transfer_violated (n : XfrNote S) (hn : ∃ b ∈ n.body.inputs ++ n.body.outputs, ∃ a, b.amount = .plain a)
    (h : (serXfrNote rmp L sg n).length < 2 ^ 31) :
    ∃ s, s ≠ serXfrNote rmp L sg n ∧ readXfrNote rmpIn R s = .ok (n, []) ∧
      readXfrNote rmpIn R (serXfrNote rmp L sg n) = .ok (n, []) := by
  have hlen : ∀ b : BlindAssetRecord S, (serBar rmp L b).length ≤ (plusBar rmp L b).length ∧
      (plusBar rmp L b).length ≤ (serBar rmp L b).length + 1 := fun b => ⟨(plusBar_length b).1, (plusBar_length b).2.1⟩
  have hi := length_vec_le hlen n.body.inputs
  have ho := length_vec_le hlen n.body.outputs
  have ci := length_le_flatMap (nonNil_bar rmp_lawful (L := L)) n.body.inputs
  have co := length_le_flatMap (nonNil_bar rmp_lawful (L := L)) n.body.outputs
  have hlt : (n.body.inputs.flatMap (serBar rmp L)).length + (n.body.outputs.flatMap (serBar rmp L)).length <
      (n.body.inputs.flatMap (plusBar rmp L)).length + (n.body.outputs.flatMap (plusBar rmp L)).length := by
    obtain ⟨b, hb, a, ha⟩ := hn
    rcases List.mem_append.mp hb with hb | hb
    · have := length_vec_lt (fun x => (hlen x).1) hb ((plusBar_length b).2.2 a ha)
      omega
    · have := length_vec_lt (fun x => (hlen x).1) hb ((plusBar_length b).2.2 a ha)
      omega
  have e1 : (plusNote rmp L sg n).length + ((n.body.inputs.flatMap (serBar rmp L)).length + (n.body.outputs.flatMap (serBar rmp L)).length) =
      (serXfrNote rmp L sg n).length + ((n.body.inputs.flatMap (plusBar rmp L)).length + (n.body.outputs.flatMap (plusBar rmp L)).length) := by
    simp only [plusNote, serXfrNote, serXfrBody, serXfrTail, serVec, List.length_append]
    omega
  have e2 : (n.body.inputs.flatMap (serBar rmp L)).length + (n.body.outputs.flatMap (serBar rmp L)).length ≤ (serXfrNote rmp L sg n).length := by
    simp only [serXfrNote, serXfrBody, serVec, List.length_append]
    omega
  refine ⟨plusNote rmp L sg n, ?_, ?_, ?_⟩
  · intro e
    rw [e] at e1
    omega
  · have := reads_plusNote hR n [] (by omega)
    rwa [List.append_nil] at this
  · have := C98_transfer_messagepack hR n [] (by omega)
    rwa [List.append_nil] at this

end

/-! ### Out of the pool -/

theorem rmp_bytes_length {a b : Bytes} (h : a.length = b.length) : (rmp.bytes a).length = (rmp.bytes b).length := by
  simp only [rmp, List.length_append, h]

theorem rmp_bytes_ne {a b s t : Bytes} (hl : a.length = b.length) (h : a ≠ b) : rmp.bytes a ++ s ≠ rmp.bytes b ++ t := by
  intro e
  obtain ⟨e1, -⟩ := List.append_inj e (rmp_bytes_length hl)
  simp only [rmp, hl] at e1
  exact h (List.append_cancel_left e1)

theorem rmp_respell (x : ZMod Codec.bls.q) : (rmp.bytes (respell x)).length = (rmp.bytes (Codec.bls.toBytes x)).length :=
  rmp_bytes_length (respell_length x)

section
variable {S : Types} {L : Leaves S} {sg : S.Sg → Bytes} {R : Parse S} (hR : R.Of L sg) {Pf : Type} {pf : Pf → WPlonk}
  {pfR : WPlonk → Res Pf} (hp : ∀ x, pfR (pf x) = .ok x)
  {P Q : SimFr.Params} {pt : S.G → Bytes} {sc : ZMod Q.r → Bytes} {ptR : Bytes → Res S.G} {scR : Bytes → Res (ZMod Q.r)}
  {G Mp : Type} {fpt : G → Bytes} {fsc : ZMod P.r → Bytes} {mul : Mp → Bytes} {fptR : Bytes → Res G} {fscR : Bytes → Res (ZMod P.r)}
  {mulR : Bytes → Res Mp} (hft : ∀ x, fptR (fpt x) = .ok x) (hfs : ∀ x, fscR (fsc x) = .ok x) (hmul : ∀ x, mulR (mul x) = .ok x)

include hR hp hft hfs hmul

/-- C115 is violated: the same for the notes that lead out of the pool, in which the nullifier and the root can be spelled differently -/
theorem C115_out_of_pool_violated (ht : ∀ x, ptR (pt x) = .ok x) (hs : ∀ x, scR (sc x) = .ok x)
    (n : AbarToArNote S P (ZMod Codec.bls.q) Pf G Mp × UInt64 × Option S.OM)
    (m : AbarToBarNote S P Q (ZMod Codec.bls.q) Pf G Mp × UInt64 × Option S.OM)
    (hn : (serAbarToArNote rmp L Codec.bls.toBytes pf fpt fsc mul n).length < 2 ^ 32)
    (hm : (serAbarToBarNote rmp L Codec.bls.toBytes pf pt sc fpt fsc mul m).length < 2 ^ 32) :
    (∃ s, s ≠ serAbarToArNote rmp L Codec.bls.toBytes pf fpt fsc mul n ∧
      readAbarToArNote rmpIn R Codec.bls.fromBytes pfR fptR fscR mulR s = .ok (n, []) ∧
      readAbarToArNote rmpIn R Codec.bls.fromBytes pfR fptR fscR mulR (serAbarToArNote rmp L Codec.bls.toBytes pf fpt fsc mul n) =
        .ok (n, [])) ∧
    ∃ s, s ≠ serAbarToBarNote rmp L Codec.bls.toBytes pf pt sc fpt fsc mul m ∧
      readAbarToBarNote rmpIn R Codec.bls.fromBytes pfR ptR scR fptR fscR mulR s = .ok (m, []) ∧
      readAbarToBarNote rmpIn R Codec.bls.fromBytes pfR ptR scR fptR fscR mulR
        (serAbarToBarNote rmp L Codec.bls.toBytes pf pt sc fpt fsc mul m) = .ok (m, []) := by
  have hb : ∀ x, Codec.bls.fromBytes (Codec.bls.toBytes x) = .ok x := fun x => (Codec.C85_scalar_roundtrip Codec.bls_fits x).2
  constructor
  · have hl : (serAbarToArNote rmp L respell pf fpt fsc mul n).length = (serAbarToArNote rmp L Codec.bls.toBytes pf fpt fsc mul n).length := by
      simp only [serAbarToArNote, serFold, serSchnorrOf, List.length_append, rmp_respell]
    refine ⟨serAbarToArNote rmp L respell pf fpt fsc mul n, ?_, ?_, ?_⟩
    · intro e
      simp only [serAbarToArNote, List.append_assoc] at e
      exact rmp_bytes_ne (respell_length _) (respell_ne _) (List.append_cancel_left (List.append_cancel_left e))
    · have := (C98_abar_to_ar_partial hR (bls := respell) respell_read hp hft hfs hmul n []).1 (by rw [hl]; exact hn)
      rwa [List.append_nil] at this
    · have := (C98_abar_to_ar_partial hR hb hp hft hfs hmul n []).1 hn
      rwa [List.append_nil] at this
  · have hl : (serAbarToBarNote rmp L respell pf pt sc fpt fsc mul m).length =
        (serAbarToBarNote rmp L Codec.bls.toBytes pf pt sc fpt fsc mul m).length := by
      simp only [serAbarToBarNote, serFold, serSchnorrOf, List.length_append, rmp_respell]
    refine ⟨serAbarToBarNote rmp L respell pf pt sc fpt fsc mul m, ?_, ?_, ?_⟩
    · intro e
      simp only [serAbarToBarNote, List.append_assoc] at e
      exact rmp_bytes_ne (respell_length _) (respell_ne _) (List.append_cancel_left (List.append_cancel_left e))
    · have := (C98_abar_to_bar_partial hR (bls := respell) respell_read hp ht hs hft hfs hmul m []).1 (by rw [hl]; exact hm)
      rwa [List.append_nil] at this
    · have := (C98_abar_to_bar_partial hR hb hp ht hs hft hfs hmul m []).1 hm
      rwa [List.append_nil] at this

end

end Verif.Serde
