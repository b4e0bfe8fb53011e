import Verif.Serde.RoundTrip

/-!
C98: notes survive the trip through bytes, except that bincode cannot read an owner memo.
-/

namespace Verif.Serde

open Verif.Xfr (Types XfrAmount XfrAssetType BlindAssetRecord TracerMemo RangeProof AmountProof XfrBody XfrNote KeyType Wire)
open Verif.Anon (ArToAbarNote BarToAbarNote AbarToArNote AbarToBarNote FoldInst)

/-! ### Memos -/

theorem bind_err {α β : Type} {m : Reader α} {f : α → Reader β} {s : Bytes} (h : m s = .err) : (m >>= f) s = .err := by
  change (m s >>= fun p => f p.1 p.2) = _
  rw [h]
  rfl

theorem bind_panic {α β : Type} {m : Reader α} {f : α → Reader β} {s : Bytes} (h : m s = .panic) : (m >>= f) s = .panic := by
  change (m s >>= fun p => f p.1 p.2) = _
  rw [h]
  rfl

/-- the first value of a memo is an untagged enum, which needs `deserialize_any` -/
theorem bincode_memo (b64 : Bytes → Option Bytes) (s : Bytes) : readMemo bincodeIn b64 s = .err := rfl

theorem rmp_any_name (i : Fin 3) (r : Bytes) : rmpIn.any (rmp.variant false i.val (keyTypeName i) ++ r) = .ok (.str (keyTypeName i), r) := by
  have h : ∀ i, (keyTypeName i).length < 2 ^ 32 := by decide
  have hs := rmpStr_str (h i) r
  have e : rmp.variant false i.val (keyTypeName i) ++ r = rmpStrLen (keyTypeName i).length ++ (keyTypeName i ++ r) := by
    simp only [rmp, Bool.false_eq_true, if_false, List.append_assoc]
  have hh : ∀ i, ∃ k : UInt8, rmpStrLen (keyTypeName i).length = [k] ∧ k ≠ 0xc0 ∧ 0xa0 ≤ k.toNat ∧ k.toNat < 0xc0 := by
    intro i
    fin_cases i <;> exact ⟨_, rfl, by decide, by decide, by decide⟩
  obtain ⟨k, hk, h1, h2, h3⟩ := hh i
  rw [e]
  rw [hk, List.cons_append, List.nil_append] at hs ⊢
  simp only [rmpIn, if_neg h1, rmpContentStr]
  rw [if_pos (Or.inl ⟨h2, h3⟩), bind_of hs, pure_of]

theorem rmpArrayLen_first (n : Nat) : ∃ (k : UInt8) (t : Bytes), rmpArrayLen n = k :: t ∧ k ≠ 0xc0 ∧
    ¬ ((0xa0 ≤ k.toNat ∧ k.toNat < 0xc0) ∨ (0xd9 ≤ k.toNat ∧ k.toNat ≤ 0xdb)) ∧ ¬ (0xc4 ≤ k.toNat ∧ k.toNat ≤ 0xc6) ∧
    ((0x90 ≤ k.toNat ∧ k.toNat < 0xa0) ∨ k = 0xdc ∨ k = 0xdd) := by
  unfold rmpArrayLen
  split_ifs with h1 h2
  · have e : (UInt8.ofNat (0x90 + n)).toNat = 0x90 + n := toNat_ofNat (by omega)
    refine ⟨_, _, rfl, fun h => ?_, ?_, ?_, ?_⟩
    · have := congrArg UInt8.toNat h
      rw [e] at this
      have k : (0xc0 : UInt8).toNat = 192 := rfl
      omega
    all_goals rw [e]; omega
  · exact ⟨_, _, rfl, by decide, by decide, by decide, by decide⟩
  · exact ⟨_, _, rfl, by decide, by decide, by decide, by decide⟩

theorem rmp_any_bytes (l : Bytes) (r : Bytes) (h : (serVec rmp rmp.u8 l).length < 2 ^ 32) :
    rmpIn.any (serVec rmp rmp.u8 l ++ r) = .ok (.ints l, r) := by
  have h0 := h
  simp only [serVec, List.length_append] at h0
  have h1 := length_le_flatMap (nonNil_u8 rmp_lawful) l
  have hc : rmpContentInts (serVec rmp rmp.u8 l ++ r) = .ok (.ints l, r) := by
    simp only [serVec, rmpContentInts, List.append_assoc]
    rw [bind_of (x := rmpArrayHead) (rmp_paired.seq l.length _ (by omega)),
      bind_of (readN_of (rd := rmpU8) l r (fun a _ r _ => rmp_paired.u8 a r) (by omega)), pure_of]
  obtain ⟨k, t, e, h1, h2, h3, h4⟩ := rmpArrayLen_first l.length
  have e' : serVec rmp rmp.u8 l = k :: (t ++ l.flatMap rmp.u8) := by
    simp only [serVec]
    change rmpArrayLen l.length ++ _ = _
    rw [e, List.cons_append]
  rw [e', List.cons_append] at hc ⊢
  simp only [rmpIn, if_neg h1, if_neg h2, if_neg h3, if_pos h4]
  exact hc

theorem keyType_name (i : Fin 3) (b64 : Bytes → Option Bytes) :
    ∃ k, (contentWire b64).seqKeyType (.str (keyTypeName i)) = .ok k ∧ keyTypeNo k = i := by
  fin_cases i
  · exact ⟨.ed25519, rfl, rfl⟩
  · exact ⟨.secp256k1, rfl, rfl⟩
  · exact ⟨.address, rfl, rfl⟩

/-- MessagePack tells the kinds of values apart, and a memo is read back -/
theorem reads_memo (b64 : Bytes → Option Bytes) : Reads (serMemo rmp) (readMemo rmpIn b64) := by
  rintro ⟨k, s, l⟩ r h
  simp only [serMemo, List.length_append] at h
  simp only [serMemo, readMemo, List.append_assoc]
  obtain ⟨kt, hk, hn⟩ := keyType_name k b64
  rw [bind_of (rmp_paired.tuple _ _ (by norm_num)), bind_of (rmp_any_name _ _), bind_of (lift_ok hk _),
    bind_of (rmp_any_bytes _ _ (by omega)), bind_of (lift_ok (x := (contentWire b64).seqShare (.ints s)) rfl _), bind_of (rmp_any_bytes _ _ (by omega)),
    bind_of (lift_ok (x := (contentWire b64).seqLock (.ints l)) rfl _), pure_of, hn]

/-! ### Transfers -/

/-- C98: a transfer note written as MessagePack is read back, whatever follows it. -/
theorem C98_transfer_messagepack {S : Types} {L : Leaves S} {sg : S.Sg → Bytes} {R : Parse S} (hR : R.Of L sg) (n : XfrNote S) (r : Bytes)
    (h : (serXfrNote rmp L sg n).length < 2 ^ 32) : readXfrNote rmpIn R (serXfrNote rmp L sg n ++ r) = .ok (n, r) :=
  reads_xfrNote rmp_lawful rmp_paired hR n r (fun m _ r hl => reads_memo R.b64 (L.om m) r hl) h

/-- C98: a transfer note without owner memos written with bincode is read back. -/
theorem C98_transfer_bincode_partial {S : Types} {L : Leaves S} {sg : S.Sg → Bytes} {R : Parse S} (hR : R.Of L sg) (n : XfrNote S)
    (r : Bytes) (hm : ∀ o ∈ n.body.ownersMemos, o = none) (h : (serXfrNote bincode L sg n).length < 2 ^ 32) :
    readXfrNote bincodeIn R (serXfrNote bincode L sg n ++ r) = .ok (n, r) :=
  reads_xfrNote bincode_lawful bincode_paired hR n r (fun m hmem => absurd (hm _ hmem) (by simp)) h

theorem readN_err {α : Type} {enc : α → Bytes} {rd : Reader α} (l : List α) (r : Bytes) (p : α → Prop) [DecidablePred p]
    (h : ∀ a ∈ l, ¬ p a → ∀ r, (enc a).length < 2 ^ 32 → rd (enc a ++ r) = .ok (a, r)) (hp : ∀ a ∈ l, p a → ∀ r, rd (enc a ++ r) = .err)
    (hx : ∃ a ∈ l, p a) (hl : (l.flatMap enc).length < 2 ^ 32) : readN rd l.length (l.flatMap enc ++ r) = .err := by
  induction l with
  | nil => simp at hx
  | cons a l ih =>
    simp only [List.flatMap_cons, List.length_append] at hl
    simp only [List.flatMap_cons, List.append_assoc, List.length_cons, readN]
    by_cases ha : p a
    · exact bind_err (hp a List.mem_cons_self ha _)
    · rw [bind_of (h a List.mem_cons_self ha _ (by omega))]
      refine bind_err (ih (fun b hb => h b (List.mem_cons_of_mem _ hb)) (fun b hb => hp b (List.mem_cons_of_mem _ hb)) ?_ (by omega))
      obtain ⟨b, hb, hpb⟩ := hx
      rcases List.mem_cons.mp hb with rfl | hb
      · exact absurd hpb ha
      · exact ⟨b, hb, hpb⟩

section
variable {F : Format} {I : Input} (hF : F.Lawful) (hP : Paired F I) {S : Types} {L : Leaves S} {sg : S.Sg → Bytes} {R : Parse S} (hR : R.Of L sg)

/-- the body without its last field -/
def serXfrInit (F : Format) {S : Types} (L : Leaves S) (b : XfrBody S) : Bytes :=
  F.tuple 5 ++ (serVec F (serBar F L) b.inputs ++ (serVec F (serBar F L) b.outputs ++ (F.tuple 2 ++ (serAmountProof F L b.amountProof ++
    (F.tuple 3 ++ (serVec F (fun p => serPeg F (L.tpf p)) b.tracingProofs ++ (serIdentity F L b.inputsIdentityProofs ++
      (serIdentity F L b.outputsIdentityProofs ++ serVec F (serVec F (serTracerMemo F L)) b.tracingMemos))))))))

theorem serXfrBody_init (b : XfrBody S) : serXfrBody F L b = serXfrInit F L b ++ serVec F (serOwnerMemo F L) b.ownersMemos := by
  simp only [serXfrBody, serXfrInit, List.append_assoc]
  rfl

include hF hP hR

theorem readXfrBody_init (b : XfrBody S) (s : Bytes) (h : (serXfrInit F L b).length < 2 ^ 32) :
    readXfrBody I R (serXfrInit F L b ++ s) = (readVec I (readOwnerMemo I R) >>= fun m => (pure { b with ownersMemos := m } : Reader _)) s := by
  obtain ⟨a1, a2, a3, a4, a5, a6, a7, a8⟩ := b
  simp only [serXfrInit, List.length_append] at h
  simp only [serXfrInit, readXfrBody, List.append_assoc]
  rw [bind_of (hP.tuple _ _ (by norm_num)), bind_of (reads_vec hP (nonNil_bar hF) (reads_bar hP hR) _ _ (by omega)),
    bind_of (reads_vec hP (nonNil_bar hF) (reads_bar hP hR) _ _ (by omega)), bind_of (hP.tuple _ _ (by norm_num)),
    bind_of (reads_amountProof hP hR _ _ (by omega)), bind_of (hP.tuple _ _ (by norm_num)),
    bind_of (reads_vec hP (fun _ => nonNil_peg hF _) (reads_map (reads_peg hP) hR.tpf) a4 _ (by omega)),
    bind_of (reads_identity hF hP hR _ _ (by omega)), bind_of (reads_identity hF hP hR _ _ (by omega)),
    bind_of (reads_vec hP (nonNil_vec hF) (reads_vec hP (nonNil_tracerMemo hF) (reads_tracerMemo hF hP hR)) _ _ (by omega))]

end

/-- with bincode an owner memo is never read -/
theorem bincode_ownerMemo {S : Types} (L : Leaves S) (R : Parse S) (m : S.OM) (r : Bytes) :
    readOwnerMemo bincodeIn R (serOwnerMemo bincode L (some m) ++ r) = .err := rfl

/-- C98: A transfer note with an owner memo written with bincode is not read back: the reader gives up.  (`bincode::serialize` of the
note succeeds.) -/
theorem C98_transfer_bincode_violated {S : Types} {L : Leaves S} {sg : S.Sg → Bytes} {R : Parse S} (hR : R.Of L sg) (n : XfrNote S)
    (r : Bytes) (m : S.OM) (hm : some m ∈ n.body.ownersMemos) (h : (serXfrNote bincode L sg n).length < 2 ^ 32) :
    readXfrNote bincodeIn R (serXfrNote bincode L sg n ++ r) = .err := by
  simp only [serXfrNote, List.length_append, serXfrBody_init] at h
  simp only [serXfrNote, readXfrNote, List.append_assoc, serXfrBody_init]
  rw [bind_of (bincode_paired.tuple _ _ (by norm_num))]
  refine bind_err ?_
  rw [readXfrBody_init bincode_lawful bincode_paired hR _ _ (by omega)]
  refine bind_err ?_
  have hl : (serVec bincode (serOwnerMemo bincode L) n.body.ownersMemos).length < 2 ^ 32 := by omega
  simp only [serVec, List.length_append] at hl
  have h1 := length_le_flatMap (enc := serOwnerMemo bincode L) (nonNil_option bincode_lawful (fun _ => nonNil_memo bincode_lawful _))
    n.body.ownersMemos
  simp only [serVec, readVec, List.append_assoc]
  rw [bind_of (bincode_paired.seq _ _ (by omega))]
  refine readN_err _ _ (fun o => o ≠ none) ?_ ?_ ⟨_, hm, by simp⟩ (by omega)
  · intro o _ ho r _
    rw [not_not.mp ho]
    rfl
  · intro o _ ho r
    obtain ⟨m, rfl⟩ := Option.ne_none_iff_exists'.mp ho
    rfl

/-! ### Conversions and anonymous transfers -/

section
variable {S : Types} {L : Leaves S} {sg : S.Sg → Bytes} {R : Parse S} (hR : R.Of L sg) {K Pf : Type} {bls : K → Bytes} {pf : Pf → WPlonk}
  {blsR : Bytes → Res K} {pfR : WPlonk → Res Pf} (hb : ∀ x, blsR (bls x) = .ok x) (hp : ∀ x, pfR (pf x) = .ok x)
  {P Q : SimFr.Params} {pt : S.G → Bytes} {sc : ZMod Q.r → Bytes} {ptR : Bytes → Res S.G} {scR : Bytes → Res (ZMod Q.r)}
  (ht : ∀ x, ptR (pt x) = .ok x) (hs : ∀ x, scR (sc x) = .ok x)
  {G Mp : Type} {fpt : G → Bytes} {fsc : ZMod P.r → Bytes} {mul : Mp → Bytes} {fptR : Bytes → Res G} {fscR : Bytes → Res (ZMod P.r)}
  {mulR : Bytes → Res Mp} (hft : ∀ x, fptR (fpt x) = .ok x) (hfs : ∀ x, fscR (fsc x) = .ok x) (hmul : ∀ x, mulR (mul x) = .ok x)

include hb hp

include hR in
/-- C98: the notes that lead into the anonymous pool are read back in both formats -/
theorem C98_ar_to_abar (n : ArToAbarNote S K Pf) (r : Bytes) :
    ((serArToAbarNote bincode L sg bls pf n).length < 2 ^ 32 →
      readArToAbarNote bincodeIn R blsR pfR (serArToAbarNote bincode L sg bls pf n ++ r) = .ok (n, r)) ∧
    ((serArToAbarNote rmp L sg bls pf n).length < 2 ^ 32 →
      readArToAbarNote rmpIn R blsR pfR (serArToAbarNote rmp L sg bls pf n ++ r) = .ok (n, r)) :=
  ⟨reads_arToAbarNote bincode_lawful bincode_paired hR hb hp n r, reads_arToAbarNote rmp_lawful rmp_paired hR hb hp n r⟩

include ht hs hR in
/-- C98: the same for confidential records -/
theorem C98_bar_to_abar (n : BarToAbarNote S Q K Pf) (r : Bytes) :
    ((serBarToAbarNote bincode L sg bls pf pt sc n).length < 2 ^ 32 →
      readBarToAbarNote bincodeIn R blsR pfR ptR scR (serBarToAbarNote bincode L sg bls pf pt sc n ++ r) = .ok (n, r)) ∧
    ((serBarToAbarNote rmp L sg bls pf pt sc n).length < 2 ^ 32 →
      readBarToAbarNote rmpIn R blsR pfR ptR scR (serBarToAbarNote rmp L sg bls pf pt sc n ++ r) = .ok (n, r)) :=
  ⟨reads_barToAbarNote bincode_lawful bincode_paired hR hb hp ht hs n r, reads_barToAbarNote rmp_lawful rmp_paired hR hb hp ht hs n r⟩

include hft hfs hmul

/-- C98: anonymous transfers are read back in both formats -/
theorem C98_anonymous_transfer {A : Type} {apk : A → Bytes} {apkR : Bytes → Res A} (ha : ∀ x, apkR (apk x) = .ok x)
    (n : Anon.XfrNote P K A Pf G Mp) (r : Bytes) :
    ((serAXfrNote bincode bls pf fpt fsc mul apk n).length < 2 ^ 32 →
      readAXfrNote bincodeIn blsR pfR fptR fscR mulR apkR (serAXfrNote bincode bls pf fpt fsc mul apk n ++ r) = .ok (n, r)) ∧
    ((serAXfrNote rmp bls pf fpt fsc mul apk n).length < 2 ^ 32 →
      readAXfrNote rmpIn blsR pfR fptR fscR mulR apkR (serAXfrNote rmp bls pf fpt fsc mul apk n ++ r) = .ok (n, r)) :=
  ⟨reads_axfrNote bincode_lawful bincode_paired hb hp hft hfs hmul ha n r, reads_axfrNote rmp_lawful rmp_paired hb hp hft hfs hmul ha n r⟩

include hR

/-- C98: A note that leads out of the anonymous pool to a public record: with MessagePack it is read back; with bincode exactly when it
has no owner memo. -/
theorem C98_abar_to_ar_partial (n : AbarToArNote S P K Pf G Mp × UInt64 × Option S.OM) (r : Bytes) :
    ((serAbarToArNote rmp L bls pf fpt fsc mul n).length < 2 ^ 32 →
      readAbarToArNote rmpIn R blsR pfR fptR fscR mulR (serAbarToArNote rmp L bls pf fpt fsc mul n ++ r) = .ok (n, r)) ∧
    ((serAbarToArNote bincode L bls pf fpt fsc mul n).length < 2 ^ 32 →
      readAbarToArNote bincodeIn R blsR pfR fptR fscR mulR (serAbarToArNote bincode L bls pf fpt fsc mul n ++ r) =
        if n.2.2 = none then .ok (n, r) else .err) := by
  refine ⟨reads_abarToArNote rmp_lawful rmp_paired hR hb hp hft hfs hmul n r (fun m _ r hl => reads_memo R.b64 (L.om m) r hl), fun h => ?_⟩
  obtain ⟨⟨i, o, t, p, f⟩, v, m⟩ := n
  cases m with
  | none =>
    rw [if_pos rfl]
    exact reads_abarToArNote bincode_lawful bincode_paired hR hb hp hft hfs hmul _ r (fun m hm => by simp at hm) h
  | some m =>
    rw [if_neg (by simp)]
    simp only [serAbarToArNote, List.length_append] at h
    simp only [serAbarToArNote, readAbarToArNote, List.append_assoc]
    rw [bind_of (bincode_paired.tuple _ _ (by norm_num)), bind_of (bincode_paired.tuple _ _ (by norm_num)),
      bind_of (reads_leaf bincode_paired hb i _ (by beta_reduce; omega)), bind_of (reads_bar bincode_paired hR _ _ (by omega)),
      bind_of (reads_leaf bincode_paired hb t _ (by beta_reduce; omega)), bind_of (bincode_paired.u64 _ _),
      bind_err (bincode_ownerMemo L R m _)]

include ht hs

/-- C98: the same for a confidential record, whose owner memo is made by `gen_abar_to_bar_note` every time -/
theorem C98_abar_to_bar_partial (n : AbarToBarNote S P Q K Pf G Mp × UInt64 × Option S.OM) (r : Bytes) :
    ((serAbarToBarNote rmp L bls pf pt sc fpt fsc mul n).length < 2 ^ 32 →
      readAbarToBarNote rmpIn R blsR pfR ptR scR fptR fscR mulR (serAbarToBarNote rmp L bls pf pt sc fpt fsc mul n ++ r) = .ok (n, r)) ∧
    ((serAbarToBarNote bincode L bls pf pt sc fpt fsc mul n).length < 2 ^ 32 →
      readAbarToBarNote bincodeIn R blsR pfR ptR scR fptR fscR mulR (serAbarToBarNote bincode L bls pf pt sc fpt fsc mul n ++ r) =
        if n.2.2 = none then .ok (n, r) else .err) := by
  refine ⟨reads_abarToBarNote rmp_lawful rmp_paired hR hb hp ht hs hft hfs hmul n r (fun m _ r hl => reads_memo R.b64 (L.om m) r hl),
    fun h => ?_⟩
  obtain ⟨⟨i, o, s, t, p, f⟩, v, m⟩ := n
  cases m with
  | none =>
    rw [if_pos rfl]
    exact reads_abarToBarNote bincode_lawful bincode_paired hR hb hp ht hs hft hfs hmul _ r (fun m hm => by simp at hm) h
  | some m =>
    rw [if_neg (by simp)]
    simp only [serAbarToBarNote, List.length_append] at h
    simp only [serAbarToBarNote, readAbarToBarNote, List.append_assoc]
    rw [bind_of (bincode_paired.tuple _ _ (by norm_num)), bind_of (bincode_paired.tuple _ _ (by norm_num)),
      bind_of (reads_leaf bincode_paired hb i _ (by beta_reduce; omega)), bind_of (reads_bar bincode_paired hR _ _ (by omega)),
      bind_of (reads_schnorr bincode_lawful bincode_paired hb ht hs s _ (by omega)),
      bind_of (reads_leaf bincode_paired hb t _ (by beta_reduce; omega)), bind_of (bincode_paired.u64 _ _),
      bind_err (bincode_ownerMemo L R m _)]

end

/-! ### Bytes made by someone else -/

/-- an owner memo whose blind share is a byte string -/
def hostileMemo (b : Bytes) : Bytes := rmp.tuple 3 ++ (rmp.variant false 0 (keyTypeName 0) ++ rmp.bytes b)

theorem rmp_any_bin (b r : Bytes) (h : b.length < 2 ^ 32) : rmpIn.any (rmp.bytes b ++ r) = .ok (.bytes b, r) := by
  have hc : rmpContentBytes (rmpBinLen b.length ++ (b ++ r)) = .ok (.bytes b, r) := by
    simp only [rmpContentBytes]
    rw [bind_of (rmpBinHead_len h _), bind_of (takeBytes_append _ _), pure_of]
  have hh : ∃ (k : UInt8) (t : Bytes), rmpBinLen b.length = k :: t ∧ k ≠ 0xc0 ∧
      ¬ ((0xa0 ≤ k.toNat ∧ k.toNat < 0xc0) ∨ (0xd9 ≤ k.toNat ∧ k.toNat ≤ 0xdb)) ∧ (0xc4 ≤ k.toNat ∧ k.toNat ≤ 0xc6) := by
    unfold rmpBinLen
    split_ifs <;> exact ⟨_, _, rfl, by decide, by decide, by decide⟩
  obtain ⟨k, t, e, h1, h2, h3⟩ := hh
  have e' : rmp.bytes b ++ r = rmpBinLen b.length ++ (b ++ r) := by simp only [rmp, List.append_assoc]
  rw [e']
  rw [e, List.cons_append] at hc ⊢
  simp only [rmpIn, if_neg h1, if_neg h2, if_pos h3]
  exact hc

/-- C98: There are bytes that make the reader of transfer notes panic: any note up to its owner memos, and then a memo whose blind share
is a byte string that does not have 32 bytes. -/
theorem C98_hostile_note_violated {S : Types} {L : Leaves S} {sg : S.Sg → Bytes} {R : Parse S} (hR : R.Of L sg) (b : XfrBody S) (k : Nat)
    (share r : Bytes) (h : (serXfrInit rmp L b).length < 2 ^ 32) (hk : k + 1 < 2 ^ 32) (hs : share.length < 2 ^ 32)
    (h32 : share.length ≠ 32) :
    readXfrNote rmpIn R (rmp.tuple 2 ++ (serXfrInit rmp L b ++ (rmp.seq (k + 1) ++ (rmp.some ++ (hostileMemo share ++ r))))) = .panic := by
  simp only [readXfrNote]
  rw [bind_of (rmp_paired.tuple _ _ (by norm_num))]
  refine bind_panic ?_
  rw [readXfrBody_init rmp_lawful rmp_paired hR _ _ h]
  refine bind_panic ?_
  simp only [readVec]
  rw [bind_of (rmp_paired.seq _ _ hk)]
  simp only [readN]
  refine bind_panic ?_
  simp only [readOwnerMemo, readOption, hostileMemo, List.append_assoc]
  rw [bind_of (rmp_paired.some _ _), if_pos rfl]
  refine bind_panic ?_
  simp only [readMap]
  refine bind_panic ?_
  obtain ⟨kt, hk, -⟩ := keyType_name 0 R.b64
  simp only [readMemo]
  rw [bind_of (rmp_paired.tuple _ _ (by norm_num))]
  have hn := rmp_any_name 0 (rmp.bytes share ++ r)
  simp only [Fin.val_zero] at hn
  rw [bind_of hn, bind_of (lift_ok hk _), bind_of (rmp_any_bin _ _ hs)]
  refine bind_panic ?_
  simp only [lift, contentWire, Wire.seqShare, if_neg h32]
  rfl

end Verif.Serde
