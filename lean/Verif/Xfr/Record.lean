import Verif.Xfr.Hybrid
import Verif.Xfr.Complete
import Verif.Xfr.Toy

/-!
Property C20: a record built for a receiver is opened by the receiver to what was put into it.
Property C22: a 64-bit amount is split into two 32-bit limbs without loss.
-/

namespace Verif.Xfr

open Spec

/-- What the owner memo code uses besides `MemoPrims`: the order of secp256k1, `OwnerMemo::hash_to_scalar`
(api/src/xfr/structs.rs l.569-574), the bytes of an asset type and the view of a public key as one of its three kinds. -/
structure RecExt (S : Types) (E K : Type) extends MemoPrims E K where
  kOrder : Nat
  hashScalar : Bytes → String → S.F
  atBytes : S.AT → Bytes
  atOf : Bytes → S.AT
  pkView : S.PK → PubKey toKeyPrims

/-- What is assumed of them. -/
structure RecLaws {S : Types} {E K : Type} [AddCommGroup E] [AddCommGroup K] (R : RecExt S E K) : Prop where
  memo : MemoLaws R.toMemoPrims
  order : R.kOrder ≤ 2 ^ 256
  scNum_lt : ∀ s, R.scNum s < R.kOrder
  at_len : ∀ t, (R.atBytes t).length = 32
  at_rt : ∀ t, R.atOf (R.atBytes t) = t

/-- `OwnerMemo` (structs.rs l.387-394) -/
structure OwnerMemo where
  keyType : KeyType
  blindShare : Bytes
  lock : Bytes
  deriving DecidableEq

section Defs

variable {S : Types} [Field S.F] [AddCommGroup S.G] [Module S.F S.G]
variable {E K : Type} [AddCommGroup E] [AddCommGroup K] (R : RecExt S E K)

/-- `XfrPublicKey::random_scalar_with_compressed_point` (sig.rs l.156-171); `r` is the random scalar -/
def RecExt.randomPoint (r : Nat) : PubKey R.toKeyPrims → KeyType × Bytes × Bytes
  | .ed25519 _ => (.ed25519, leBytes 32 r, R.edCompress (r • R.edBase))
  | .secp256k1 _ => (.secp256k1, leBytes 32 r, R.kCompress (r • R.kBase))
  | .address _ => (.secp256k1, leBytes 32 r, R.kCompress (r • R.kBase))

/-- `XfrPublicKey::as_compressed_point` (l.174-180) -/
def RecExt.compressedPoint : PubKey R.toKeyPrims → Res Bytes
  | .ed25519 k => .ok (R.edPkBytes k)
  | .secp256k1 k => .ok (R.kCompress (R.scPoint k))
  | .address _ => .panic

/-- `XfrSecretKey::as_scalar_bytes` (l.409-432) -/
def RecExt.scalarBytes : SecKey R.toKeyPrims → KeyType × Bytes
  | .ed25519 k => (.ed25519, edClamp (R.edHash k))
  | .secp256k1 k => (.secp256k1, leBytes 32 (R.scNum k))
  | .address k => (.address, leBytes 32 (R.scNum k))

/-- `OwnerMemo::derive_shared_point` (structs.rs l.550-566).  Ed25519: the scalar is read without reduction
(ristretto.rs l.251-258), `from_slice` panics unless it gets 32 bytes, `mul` (ristretto.rs l.437-445) panics on bytes that are
no point.  Secp256k1: the scalar is reduced (algebra/src/secp256k1.rs l.273-280). -/
def RecExt.sharedPoint (t : KeyType) (s p : Bytes) : Res Bytes :=
  match t with
  | .ed25519 =>
    if 32 < s.length then .err
    else if p.length ≠ 32 then .panic
    else do
      let pt ← Res.unwrap (R.edDecompress p)
      pure (R.edCompress (ofLE (fromBits (s ++ List.replicate (32 - s.length) 0)) • pt))
  | .secp256k1 =>
    if 32 < s.length then .err
    else do
      let pt ← Res.ofOption (R.kDecompress p)
      pure (R.kCompress ((ofLE s % R.kOrder) • pt))
  | .address => .err

/-- `OwnerMemo::calc_amount_blinds` (l.537-542) -/
def RecExt.amountBlinds (shared : Bytes) : S.F × S.F :=
  (R.hashScalar shared "amount_low", R.hashScalar shared "amount_high")

/-- `OwnerMemo::calc_asset_type_blind` (l.545-547) -/
def RecExt.typeBlind (shared : Bytes) : S.F := R.hashScalar shared "asset_type"

/-- The common part of `OwnerMemo::from_amount`, `from_asset_type` and `from_amount_and_asset_type` (l.398-467): the memo with
the given plaintext, and the shared point. -/
def RecExt.memo (r : Nat) (rnd : EncRand) (pk : PubKey R.toKeyPrims) (msg : Bytes) : Res (OwnerMemo × Bytes) := do
  let share := R.randomPoint r pk
  let pt ← R.compressedPoint pk
  let shared ← R.sharedPoint share.1 share.2.1 pt
  let lock ← R.pubEncrypt rnd pk msg
  pure (⟨share.1, share.2.2, lock⟩, shared)

/-- `OwnerMemo::decrypt` (l.532-534) -/
def RecExt.decrypt (m : OwnerMemo) (kp : KeyPair R.toKeyPrims) : Res Bytes := R.secDecrypt kp.sec m.lock

/-- the shared point on the side of the receiver (l.513-527) -/
def RecExt.derive (m : OwnerMemo) (kp : KeyPair R.toKeyPrims) : Res Bytes :=
  R.sharedPoint (R.scalarBytes kp.sec).1 (R.scalarBytes kp.sec).2 m.blindShare

/-- `OwnerMemo::decrypt_amount` (l.471-480) -/
def RecExt.decryptAmount (m : OwnerMemo) (kp : KeyPair R.toKeyPrims) : Res UInt64 := do
  let b ← R.decrypt m kp
  if b.length ≠ 8 then .err else pure (UInt64.ofNat (ofBE b))

/-- `OwnerMemo::decrypt_asset_type` (l.484-492) -/
def RecExt.decryptType (m : OwnerMemo) (kp : KeyPair R.toKeyPrims) : Res S.AT := do
  let b ← R.decrypt m kp
  if b.length ≠ 32 then .err else pure (R.atOf b)

/-- `OwnerMemo::decrypt_amount_and_asset_type` (l.496-510) -/
def RecExt.decryptBoth (m : OwnerMemo) (kp : KeyPair R.toKeyPrims) : Res (UInt64 × S.AT) := do
  let b ← R.decrypt m kp
  if b.length ≠ 40 then .err else pure (UInt64.ofNat (ofBE (b.take 8)), R.atOf (b.drop 8))

/-- The part of an `AssetRecordTemplate` (asset_record.rs) that the builder of the blind record reads; the record type is the
pair of its confidentiality flags. -/
structure Template (S : Types) where
  amount : UInt64
  assetType : S.AT
  confAmount : Bool
  confType : Bool
  publicKey : S.PK

/-- `XfrAmount::from_blinds` (structs.rs l.175-189) -/
def amountFromBlinds (X : Ext S) (a : UInt64) (b : S.F × S.F) : XfrAmount S :=
  .conf (X.compress (X.commit ((splitU64 a).1.toNat : S.F) b.1)) (X.compress (X.commit ((splitU64 a).2.toNat : S.F) b.2))

/-- `XfrAssetType::from_blind` (l.252-259) -/
def typeFromBlind (X : Ext S) (t : S.AT) (b : S.F) : XfrAssetType S := .conf (X.compress (X.commit (X.asScalar t) b))

/-- `sample_blind_asset_record` (asset_record.rs l.326-443) and `build_open_asset_record` (l.446-464) without the tracer memos
(see `Verif/Xfr/TracerMemo.lean`). -/
def RecExt.build (X : Ext S) (r : Nat) (rnd : EncRand) (t : Template S) : Res (OpenAssetRecord S × Option OwnerMemo) :=
  let pk := R.pkView t.publicKey
  match t.confAmount, t.confType with
  | false, false => .ok (⟨⟨.plain t.amount, .plain t.assetType, t.publicKey⟩, t.amount, (0, 0), t.assetType, 0⟩, none)
  | true, false =>
    match R.memo r rnd pk (beBytes 8 t.amount.toNat) with
    | .ok (m, sh) =>
      .ok (⟨⟨amountFromBlinds X t.amount (R.amountBlinds sh), .plain t.assetType, t.publicKey⟩, t.amount, R.amountBlinds sh,
        t.assetType, 0⟩, some m)
    | _ => .panic
  | false, true =>
    match R.memo r rnd pk (R.atBytes t.assetType) with
    | .ok (m, sh) =>
      .ok (⟨⟨.plain t.amount, typeFromBlind X t.assetType (R.typeBlind sh), t.publicKey⟩, t.amount, (0, 0), t.assetType,
        R.typeBlind sh⟩, some m)
    | _ => .panic
  | true, true =>
    match R.memo r rnd pk (beBytes 8 t.amount.toNat ++ R.atBytes t.assetType) with
    | .ok (m, sh) =>
      .ok (⟨⟨amountFromBlinds X t.amount (R.amountBlinds sh), typeFromBlind X t.assetType (R.typeBlind sh), t.publicKey⟩,
        t.amount, R.amountBlinds sh, t.assetType, R.typeBlind sh⟩, some m)
    | _ => .panic

/-- `open_blind_asset_record` (asset_record.rs l.481-542) -/
def RecExt.openRecord (bar : BlindAssetRecord S) (memo : Option OwnerMemo) (kp : KeyPair R.toKeyPrims) :
    Res (OpenAssetRecord S) :=
  match bar.amount, bar.assetType with
  | .plain a, .plain t => .ok ⟨bar, a, (0, 0), t, 0⟩
  | .conf _ _, .plain t => do
    let m ← Res.ofOption memo
    let a ← R.decryptAmount m kp
    let sh ← R.derive m kp
    pure ⟨bar, a, R.amountBlinds sh, t, 0⟩
  | .plain a, .conf _ => do
    let m ← Res.ofOption memo
    let t ← R.decryptType m kp
    let sh ← R.derive m kp
    pure ⟨bar, a, (0, 0), t, R.typeBlind sh⟩
  | .conf _ _, .conf _ => do
    let m ← Res.ofOption memo
    let at' ← R.decryptBoth m kp
    let sh ← R.derive m kp
    let sh' ← R.derive m kp
    pure ⟨bar, at'.1, R.amountBlinds sh, at'.2, R.typeBlind sh'⟩

end Defs

/-! ### C22 -/

/-- C22: the two limbs of an amount determine it, `amount = low + 2^32 * high`. -/
theorem C22_split_recombines (a : UInt64) : (splitU64 a).1.toNat + 2 ^ 32 * (splitU64 a).2.toNat = a.toNat := by
  obtain ⟨h1, h2⟩ := splitU64_toNat a
  rw [h1, h2]
  omega

/-- C22: every pair of limbs is the pair of limbs of exactly one amount. -/
theorem C22_split_bijective : Function.Bijective splitU64 := by
  constructor
  · intro a b h
    apply UInt64.toNat_inj.mp
    rw [← C22_split_recombines a, ← C22_split_recombines b, h]
  · rintro ⟨lo, hi⟩
    have hlo : lo.toNat < 2 ^ 32 := lo.toNat_lt
    have hhi : hi.toNat < 2 ^ 32 := hi.toNat_lt
    refine ⟨UInt64.ofNat (lo.toNat + 2 ^ 32 * hi.toNat), ?_⟩
    obtain ⟨h1, h2⟩ := splitU64_toNat (UInt64.ofNat (lo.toNat + 2 ^ 32 * hi.toNat))
    rw [UInt64.toNat_ofNat_of_lt' (by show lo.toNat + 2 ^ 32 * hi.toNat < 2 ^ 64; omega)] at h1 h2
    apply Prod.ext
    · apply UInt32.toNat_inj.mp
      rw [h1]
      show _ = lo.toNat
      omega
    · apply UInt32.toNat_inj.mp
      rw [h2]
      show _ = hi.toNat
      omega

example : splitU64 0x0000000700000005 = (5, 7) := by decide

section Commit

variable {S : Types} [Field S.F] [AddCommGroup S.G] [Module S.F S.G]

/-- C22: the pair of commitments made by `from_blinds` commits to the 64-bit amount: recombined with the weight `2^32` it is a
commitment to the amount. -/
theorem C22_commits_to_amount (X : Ext S) (henc : Encoding X) (a : UInt64) (b : S.F × S.F) :
    ∃ lo hi glo ghi, amountFromBlinds X a b = .conf lo hi ∧ X.decompress lo = some glo ∧ X.decompress hi = some ghi ∧
      glo + (2 ^ 32 : S.F) • ghi = (a.toNat : S.F) • X.B + (b.1 + 2 ^ 32 * b.2) • X.Bb := by
  refine ⟨_, _, _, _, rfl, henc.dec_comp _, henc.dec_comp _, ?_⟩
  have h := C22_split_recombines a
  have h' : (a.toNat : S.F) = ((splitU64 a).1.toNat : S.F) + 2 ^ 32 * ((splitU64 a).2.toNat : S.F) := by
    rw [← h, Nat.cast_add, Nat.cast_mul, Nat.cast_pow, Nat.cast_ofNat]
  unfold Ext.commit
  rw [h']
  module

/-- C22: two amounts with the same pair of commitments are equal, or the two openings of one of the commitments give a linear
relation between the Pedersen generators (`x • B = y • Bb` with `x` non-zero). -/
theorem C22_commitments_binding (X : Ext S) (henc : Encoding X) (hchar : ∀ n : Nat, 0 < n → n < 2 ^ 32 → (n : S.F) ≠ 0)
    (a a' : UInt64) (b b' : S.F × S.F) (h : amountFromBlinds X a b = amountFromBlinds X a' b') :
    a = a' ∨
    (((splitU64 a).1.toNat : S.F) - (splitU64 a').1.toNat ≠ 0 ∧
      (((splitU64 a).1.toNat : S.F) - (splitU64 a').1.toNat) • X.B = (b'.1 - b.1) • X.Bb) ∨
    (((splitU64 a).2.toNat : S.F) - (splitU64 a').2.toNat ≠ 0 ∧
      (((splitU64 a).2.toNat : S.F) - (splitU64 a').2.toNat) • X.B = (b'.2 - b.2) • X.Bb) := by
  have inj : ∀ g g', X.compress g = X.compress g' → g = g' := fun g g' e => by
    have := henc.dec_comp g
    rw [e, henc.dec_comp] at this
    exact (Option.some_injective _ this).symm
  have hinj : ∀ x y : Nat, x < 2 ^ 32 → y < 2 ^ 32 → (x : S.F) - y = 0 → x = y := by
    intro x y hx hy e
    rcases Nat.lt_trichotomy x y with hlt | heq | hlt
    · exfalso
      refine hchar (y - x) (by omega) (by omega) ?_
      rw [Nat.cast_sub (by omega)]
      linear_combination -e
    · exact heq
    · exfalso
      refine hchar (x - y) (by omega) (by omega) ?_
      rw [Nat.cast_sub (by omega)]
      linear_combination e
  simp only [amountFromBlinds, XfrAmount.conf.injEq] at h
  have h1 := inj _ _ h.1
  have h2 := inj _ _ h.2
  unfold Ext.commit at h1 h2
  by_cases e1 : ((splitU64 a).1.toNat : S.F) - (splitU64 a').1.toNat = 0
  · by_cases e2 : ((splitU64 a).2.toNat : S.F) - (splitU64 a').2.toNat = 0
    · left
      apply UInt64.toNat_inj.mp
      rw [← C22_split_recombines a, ← C22_split_recombines a',
        hinj _ _ (splitU64 a).1.toNat_lt (splitU64 a').1.toNat_lt e1,
        hinj _ _ (splitU64 a).2.toNat_lt (splitU64 a').2.toNat_lt e2]
    · right; right
      refine ⟨e2, ?_⟩
      linear_combination (norm := module) h2
  · right; left
    refine ⟨e1, ?_⟩
    linear_combination (norm := module) h1

end Commit

/-! ### C20 -/

section Open

variable {S : Types} [Field S.F] [AddCommGroup S.G] [Module S.F S.G]
variable {E K : Type} [AddCommGroup E] [AddCommGroup K] (R : RecExt S E K) (hR : RecLaws R)

/-- Randomness of the shared point: a scalar below the group orders (`random` returns a reduced scalar, below 2^253 for
Ristretto). -/
def RecExt.GoodRand (r : Nat) : Prop := r < 2 ^ 255 ∧ r < R.kOrder

theorem fromBits_leBytes (r : Nat) (h : r < 2 ^ 255) : fromBits (leBytes 32 r) = leBytes 32 r := by
  unfold fromBits
  apply List.ext_getElem?
  intro i
  rw [List.getElem?_modify]
  by_cases hi : i = 31
  · subst hi
    have key : ∀ n k : Nat, n < 32 → (leBytes 32 k)[n]? = some (UInt8.ofNat (k / 256 ^ n)) := by
      intro n k hn
      have : ∀ m n k : Nat, n < m → (leBytes m k)[n]? = some (UInt8.ofNat (k / 256 ^ n)) := by
        intro m
        induction m with
        | zero => intro n k hn; omega
        | succ m ih =>
          intro n k hn
          cases n with
          | zero => simp [leBytes]
          | succ n =>
            simp only [leBytes, List.getElem?_cons_succ]
            rw [ih n (k / 256) (by omega), Nat.div_div_eq_div_mul, pow_succ, Nat.mul_comm]
      exact this 32 n k hn
    rw [key 31 r (by omega)]
    simp only [if_true, Option.map_eq_map, Option.map_some, Option.some.injEq]
    have hlt : r / 256 ^ 31 < 128 := by
      rw [Nat.div_lt_iff_lt_mul (by positivity)]
      calc r < 2 ^ 255 := h
        _ = 128 * 256 ^ 31 := by norm_num
    have : ∀ n : Fin 128, (UInt8.ofNat n.1 &&& 127) = UInt8.ofNat n.1 := by decide +kernel
    exact this ⟨_, hlt⟩
  · simp [Ne.symm hi]

include hR in
/-- both sides compute one shared point -/
theorem shared_agree (addr : R.ScPK → Addr) (r : Nat) (hr : R.GoodRand r) (sk : SecKey R.toKeyPrims) (pt shared : Bytes)
    (hpt : R.compressedPoint (R.pubOf addr sk) = .ok pt)
    (hs : R.sharedPoint (R.randomPoint r (R.pubOf addr sk)).1 (R.randomPoint r (R.pubOf addr sk)).2.1 pt = .ok shared) :
    R.sharedPoint (R.scalarBytes sk).1 (R.scalarBytes sk).2 (R.randomPoint r (R.pubOf addr sk)).2.2 = .ok shared := by
  cases sk with
  | ed25519 k =>
    simp only [MemoPrims.pubOf, RecExt.compressedPoint, Res.ok.injEq] at hpt
    subst hpt
    simp only [MemoPrims.pubOf, RecExt.randomPoint, RecExt.sharedPoint, leBytes_length, lt_self_iff_false, if_false,
      hR.memo.ed_pub, hR.memo.ed_len, ne_eq, not_true_eq_false, hR.memo.ed_rt, Res.unwrap_some, Res.bind_ok, Res.pure_eq,
      Res.ok.injEq, Nat.sub_self, List.replicate_zero, List.append_nil, fromBits_leBytes r hr.1] at hs
    subst hs
    rw [ofLE_leBytes_of_lt (lt_of_lt_of_le hr.1 (by norm_num))]
    simp only [MemoPrims.pubOf, RecExt.randomPoint, RecExt.scalarBytes, RecExt.sharedPoint, edClamp_length,
      hR.memo.hash_len, lt_self_iff_false, if_false, hR.memo.ed_len, ne_eq, not_true_eq_false, hR.memo.ed_rt,
      Res.unwrap_some, Res.bind_ok, Res.pure_eq, Nat.sub_self, List.replicate_zero, List.append_nil, fromBits_edClamp]
    rw [smul_comm]
  | secp256k1 k =>
    simp only [MemoPrims.pubOf, RecExt.compressedPoint, Res.ok.injEq] at hpt
    subst hpt
    have hb : ∀ n, n < R.kOrder → ofLE (leBytes 32 n) % R.kOrder = n := fun n hn => by
      rw [ofLE_leBytes_of_lt (lt_of_lt_of_le hn (le_trans hR.order (by norm_num))), Nat.mod_eq_of_lt hn]
    simp only [MemoPrims.pubOf, RecExt.randomPoint, RecExt.sharedPoint, leBytes_length, lt_self_iff_false, if_false,
      hR.memo.k_pub, hR.memo.k_rt, Res.ofOption_some, Res.bind_ok, Res.pure_eq, Res.ok.injEq, hb r hr.2] at hs
    subst hs
    simp only [MemoPrims.pubOf, RecExt.randomPoint, RecExt.scalarBytes, RecExt.sharedPoint, leBytes_length,
      lt_self_iff_false, if_false, hR.memo.k_rt, Res.ofOption_some, Res.bind_ok, Res.pure_eq, hb _ (hR.scNum_lt k)]
    rw [smul_comm]
  | address k => simp [MemoPrims.pubOf, RecExt.compressedPoint] at hpt

include hR in
/-- what the receiver gets out of a memo -/
theorem memo_opens (addr : R.ScPK → Addr) (r : Nat) (hr : R.GoodRand r) (rnd : EncRand) (sk : SecKey R.toKeyPrims)
    (msg : Bytes) (m : OwnerMemo) (sh : Bytes) (h : R.memo r rnd (R.pubOf addr sk) msg = .ok (m, sh)) :
    R.decrypt m ⟨R.pubOf addr sk, sk⟩ = .ok msg ∧ R.derive m ⟨R.pubOf addr sk, sk⟩ = .ok sh := by
  unfold RecExt.memo at h
  obtain ⟨pt, hpt, h⟩ := Res.bind_eq_ok.mp h
  obtain ⟨sh', hs, h⟩ := Res.bind_eq_ok.mp h
  obtain ⟨lock, hl, h⟩ := Res.bind_eq_ok.mp h
  simp only [Res.pure_eq, Res.ok.injEq, Prod.mk.injEq] at h
  obtain ⟨rfl, rfl⟩ := h
  exact ⟨C38_transfer_keys _ hR.memo addr rnd sk msg lock hl, shared_agree R hR addr r hr sk pt sh' hpt hs⟩

theorem be_rt (a : UInt64) : UInt64.ofNat (ofBE (beBytes 8 a.toNat)) = a := by
  rw [ofBE_beBytes_of_lt (lt_of_lt_of_le a.toNat_lt (by norm_num))]
  simp

include hR in
/-- C20: a record built for the public key of an Ed25519 or secp256k1 secret key is opened by that key to the amount and
asset type it was built from, with the blinding factors of the builder. -/
theorem C20_open_built (X : Ext S) (addr : R.ScPK → Addr) (r : Nat) (hr : R.GoodRand r) (rnd : EncRand) (t : Template S)
    (sk : SecKey R.toKeyPrims) (hpk : R.pkView t.publicKey = R.pubOf addr sk) (o : OpenAssetRecord S)
    (memo : Option OwnerMemo) (h : R.build X r rnd t = .ok (o, memo)) :
    R.openRecord o.bar memo ⟨R.pubOf addr sk, sk⟩ = .ok o ∧ o.amount = t.amount ∧ o.assetType = t.assetType ∧
      o.bar.publicKey = t.publicKey ∧ o.bar.recordType = (t.confAmount, t.confType) := by
  obtain ⟨am, ty, ca, ct, pk⟩ := t
  simp only at hpk
  unfold RecExt.build at h
  simp only [hpk] at h
  rcases ca with _ | _ <;> rcases ct with _ | _ <;> simp only at h
  · simp only [Res.ok.injEq, Prod.mk.injEq] at h
    obtain ⟨rfl, rfl⟩ := h
    exact ⟨rfl, rfl, rfl, rfl, rfl⟩
  · cases hm : R.memo r rnd (R.pubOf addr sk) (R.atBytes ty) with
    | err => rw [hm] at h; simp at h
    | panic => rw [hm] at h; simp at h
    | ok ms =>
      obtain ⟨m, sh⟩ := ms
      rw [hm] at h
      simp only [Res.ok.injEq, Prod.mk.injEq] at h
      obtain ⟨rfl, rfl⟩ := h
      obtain ⟨h1, h2⟩ := memo_opens R hR addr r hr rnd sk _ m sh hm
      refine ⟨?_, rfl, rfl, rfl, rfl⟩
      simp [RecExt.openRecord, typeFromBlind, RecExt.decryptType, h1, h2, hR.at_len, hR.at_rt]
  · cases hm : R.memo r rnd (R.pubOf addr sk) (beBytes 8 am.toNat) with
    | err => rw [hm] at h; simp at h
    | panic => rw [hm] at h; simp at h
    | ok ms =>
      obtain ⟨m, sh⟩ := ms
      rw [hm] at h
      simp only [Res.ok.injEq, Prod.mk.injEq] at h
      obtain ⟨rfl, rfl⟩ := h
      obtain ⟨h1, h2⟩ := memo_opens R hR addr r hr rnd sk _ m sh hm
      refine ⟨?_, rfl, rfl, rfl, rfl⟩
      simp only [RecExt.openRecord, amountFromBlinds, RecExt.decryptAmount, h1, h2, beBytes_length, Res.ofOption_some,
        Res.bind_ok, ne_eq, not_true_eq_false, if_false, Res.pure_eq, be_rt]
  · cases hm : R.memo r rnd (R.pubOf addr sk) (beBytes 8 am.toNat ++ R.atBytes ty) with
    | err => rw [hm] at h; simp at h
    | panic => rw [hm] at h; simp at h
    | ok ms =>
      obtain ⟨m, sh⟩ := ms
      rw [hm] at h
      simp only [Res.ok.injEq, Prod.mk.injEq] at h
      obtain ⟨rfl, rfl⟩ := h
      obtain ⟨h1, h2⟩ := memo_opens R hR addr r hr rnd sk _ m sh hm
      refine ⟨?_, rfl, rfl, rfl, rfl⟩
      have hlen : (beBytes 8 am.toNat ++ R.atBytes ty).length = 40 := by simp [hR.at_len]
      have ht : (beBytes 8 am.toNat ++ R.atBytes ty).take 8 = beBytes 8 am.toNat := List.take_left' (beBytes_length _ _)
      have hd : (beBytes 8 am.toNat ++ R.atBytes ty).drop 8 = R.atBytes ty := List.drop_left' (beBytes_length _ _)
      simp only [RecExt.openRecord, amountFromBlinds, typeFromBlind, RecExt.decryptBoth, h1, h2, hlen, ht, hd,
        Res.ofOption_some, Res.bind_ok, ne_eq, not_true_eq_false, if_false, Res.pure_eq, be_rt, hR.at_rt]

/-- C20: the blinding factors open the commitments of the record: the record is well-formed in the sense required of honest
transfers (C17). -/
theorem C20_built_well_formed (X : Ext S) (henc : Encoding X) (r : Nat) (rnd : EncRand) (t : Template S)
    (o : OpenAssetRecord S) (memo : Option OwnerMemo) (h : R.build X r rnd t = .ok (o, memo)) : WellFormed X o := by
  obtain ⟨am, ty, ca, ct, pk⟩ := t
  obtain ⟨hs1, hs2⟩ := splitU64_toNat am
  unfold RecExt.build at h
  rcases ca with _ | _ <;> rcases ct with _ | _ <;> simp only at h
  · simp only [Res.ok.injEq, Prod.mk.injEq] at h
    obtain ⟨rfl, rfl⟩ := h
    exact ⟨⟨rfl, rfl⟩, rfl, rfl⟩
  all_goals
    split at h
    · rename_i m sh hm
      simp only [Res.ok.injEq, Prod.mk.injEq] at h
      obtain ⟨rfl, rfl⟩ := h
      constructor
      · first
        | exact ⟨rfl, rfl⟩
        | (simp only [amountFromBlinds, Ext.commit, henc.dec_comp, hs1, hs2]; exact ⟨trivial, trivial⟩)
      · first
        | exact ⟨rfl, rfl⟩
        | (simp only [typeFromBlind, Ext.commit, henc.dec_comp])
    · simp at h

include hR in
/-- C20: building a record for such a key does not fail, provided AES-GCM encrypts the plaintext (it refuses only messages
above 64 GB). -/
theorem C20_build_succeeds_partial (X : Ext S) (addr : R.ScPK → Addr) (r : Nat) (rnd : EncRand) (t : Template S)
    (sk : SecKey R.toKeyPrims) (hk : ∀ k, sk ≠ .address k) (hpk : R.pkView t.publicKey = R.pubOf addr sk)
    (hg : ∀ key msg, ∃ c, R.gcmEnc key msg = some c) :
    ∃ o memo, R.build X r rnd t = .ok (o, memo) := by
  have key : ∀ msg, ∃ m sh, R.memo r rnd (R.pubOf addr sk) msg = .ok (m, sh) := by
    intro msg
    have henc := C38_encryption_succeeds _ hR.memo addr rnd msg
    unfold RecExt.memo
    cases sk with
    | ed25519 k =>
      obtain ⟨lock, hl⟩ := henc.1 k
      rw [hl]
      simp [MemoPrims.pubOf, RecExt.randomPoint, RecExt.compressedPoint, RecExt.sharedPoint, hR.memo.ed_pub,
        hR.memo.ed_len, hR.memo.ed_rt]
    | secp256k1 k =>
      obtain ⟨lock, hl⟩ := henc.2 (fun key => hg key msg) k
      rw [hl]
      simp [MemoPrims.pubOf, RecExt.randomPoint, RecExt.compressedPoint, RecExt.sharedPoint, hR.memo.k_rt]
    | address k => exact absurd rfl (hk k)
  obtain ⟨am, ty, ca, ct, pk⟩ := t
  simp only at hpk
  unfold RecExt.build
  simp only [hpk]
  rcases ca with _ | _ <;> rcases ct with _ | _ <;> simp only
  · exact ⟨_, _, rfl⟩
  · obtain ⟨m, sh, hm⟩ := key (R.atBytes ty)
    rw [hm]
    exact ⟨_, _, rfl⟩
  · obtain ⟨m, sh, hm⟩ := key (beBytes 8 am.toNat)
    rw [hm]
    exact ⟨_, _, rfl⟩
  · obtain ⟨m, sh, hm⟩ := key (beBytes 8 am.toNat ++ R.atBytes ty)
    rw [hm]
    exact ⟨_, _, rfl⟩

/-- C20 is violated for the third kind of keys: building a record with a hidden field for an address panics. -/
theorem C20_address_panics (X : Ext S) (r : Nat) (rnd : EncRand) (t : Template S) (a : Addr)
    (hpk : R.pkView t.publicKey = .address a) (hc : t.confAmount = true ∨ t.confType = true) :
    R.build X r rnd t = .panic := by
  obtain ⟨am, ty, ca, ct, pk⟩ := t
  simp only at hpk hc
  have hm : ∀ msg, R.memo r rnd (.address a) msg = .panic := fun msg => rfl
  unfold RecExt.build
  simp only [hpk, hm]
  rcases ca with _ | _ <;> rcases ct with _ | _ <;> simp at hc ⊢

/-- Opening does not compare the opened values with the commitments: whatever the hidden fields of a record commit to, the
memo alone determines the outcome. -/
theorem C20_opening_unchecked (pk : S.PK) (memo : Option OwnerMemo) (kp : KeyPair R.toKeyPrims) (lo hi c lo' hi' c' : S.CG)
    (o : OpenAssetRecord S) (h : R.openRecord ⟨.conf lo hi, .conf c, pk⟩ memo kp = .ok o) :
    ∃ o', R.openRecord ⟨.conf lo' hi', .conf c', pk⟩ memo kp = .ok o' ∧ o'.amount = o.amount ∧
      o'.assetType = o.assetType ∧ o'.amountBlinds = o.amountBlinds ∧ o'.typeBlind = o.typeBlind := by
  unfold RecExt.openRecord at h ⊢
  obtain ⟨m, hm, h⟩ := Res.bind_eq_ok.mp h
  obtain ⟨x, hx, h⟩ := Res.bind_eq_ok.mp h
  obtain ⟨sh, hsh, h⟩ := Res.bind_eq_ok.mp h
  obtain ⟨sh', hsh', h⟩ := Res.bind_eq_ok.mp h
  simp only [Res.pure_eq, Res.ok.injEq] at h
  subst h
  simp only [hm, hx, Res.bind_ok, Res.pure_eq]
  have hse : sh' = sh := by
    rw [hsh] at hsh'
    exact (Res.ok.injEq _ _ ▸ hsh').symm
  subst hse
  rw [hsh, Res.bind_ok]
  exact ⟨_, rfl, rfl, rfl, rfl, rfl⟩

/-- A hostile memo makes the receiver panic instead of returning an error: a lock shorter than a point for a secp256k1 key. -/
theorem C20_hostile_memo_panics (pub : PubKey R.toKeyPrims) (k : R.ScSK) (pk : S.PK) (lo hi : S.CG) (t : S.AT)
    (m : OwnerMemo) (hl : m.lock.length < 33) :
    R.openRecord ⟨.conf lo hi, .plain t, pk⟩ (some m) ⟨pub, .secp256k1 k⟩ = .panic := by
  simp [RecExt.openRecord, RecExt.decryptAmount, RecExt.decrypt, MemoPrims.secDecrypt, hl]

/-- C20: a record with hidden fields is not opened without a memo, nor with a memo whose plaintext has not exactly the length of
the hidden fields: 8 bytes for an amount, 32 for an asset type, 40 for both. -/
theorem C20_lengths_refused (pk : S.PK) (kp : KeyPair R.toKeyPrims) (lo hi c : S.CG) (a : UInt64) (t : S.AT) :
    R.openRecord ⟨.conf lo hi, .plain t, pk⟩ none kp = .err ∧ R.openRecord ⟨.plain a, .conf c, pk⟩ none kp = .err ∧
    R.openRecord ⟨.conf lo hi, .conf c, pk⟩ none kp = .err ∧
    ∀ m b, R.decrypt m kp = .ok b →
      (b.length ≠ 8 → R.openRecord ⟨.conf lo hi, .plain t, pk⟩ (some m) kp = .err) ∧
      (b.length ≠ 32 → R.openRecord ⟨.plain a, .conf c, pk⟩ (some m) kp = .err) ∧
      (b.length ≠ 40 → R.openRecord ⟨.conf lo hi, .conf c, pk⟩ (some m) kp = .err) := by
  refine ⟨rfl, rfl, rfl, fun m b hb => ⟨fun h => ?_, fun h => ?_, fun h => ?_⟩⟩
  · simp [RecExt.openRecord, RecExt.decryptAmount, hb, h]
  · simp [RecExt.openRecord, RecExt.decryptType, hb, h]
  · simp [RecExt.openRecord, RecExt.decryptBoth, hb, h]

end Open

/-! ### The hypotheses can be met -/

@[reducible] def recT : Types := { toyT with AT := Fix 32, PK := PubKey toyKeys }

/-- commitments are pairs (value, blinding factor); the proof systems play no role here -/
@[reducible] def recX : Ext recT where
  decompress := some
  compress := id
  identityC := (0, 0)
  B := (1, 0)
  Bb := (0, 1)
  asScalar := fun t => (ofLE t.1 : ℚ)
  proveRanges := fun _ _ => none
  batchRanges := fun _ => false
  proveAsset := fun _ _ _ => none
  batchAsset := fun _ => false
  proveMix := fun _ _ => none
  batchMix := fun _ => false
  provePeg := fun _ _ _ _ _ => ()
  batchPeg := fun _ => false
  acVerify := fun _ _ _ _ => false
  ser := fun _ => none
  pkBytes := fun _ => []
  sigVerify := fun _ _ _ => false
  kpPub := fun _ => .address ⟨List.replicate 20 0, rfl⟩
  kpSign := fun _ _ => none

@[reducible] def recR : RecExt recT (ZMod 97) (ZMod 101) where
  toMemoPrims := toyPrims
  kOrder := 2 ^ 256
  hashScalar := fun b l => (ofLE b + l.length : ℚ)
  atBytes := fun t => t.1
  atOf := fun b => if h : b.length = 32 then ⟨b, h⟩ else ⟨List.replicate 32 0, rfl⟩
  pkView := id

theorem recR_laws : RecLaws recR where
  memo := toyPrims_laws
  order := le_refl _
  scNum_lt := fun s => by
    have h := ofLE_lt s.1
    rw [s.2] at h
    exact lt_of_lt_of_le h (by norm_num)
  at_len := fun t => t.2
  at_rt := fun t => by simp [recR, t.2]

/-- a record that hides a large amount and its type is built and opened, for keys of both kinds -/
example (sk : SecKey toyKeys) (hk : ∀ k, sk ≠ .address k) :
    ∃ o m, recR.build recX 12 ⟨List.replicate 32 9, 12⟩ ⟨2 ^ 40 + 5, ⟨List.replicate 32 7, rfl⟩, true, true,
        toyPrims.pubOf (fun _ => ⟨List.replicate 20 0, rfl⟩) sk⟩ = .ok (o, m) ∧
      recR.openRecord o.bar m ⟨toyPrims.pubOf (fun _ => ⟨List.replicate 20 0, rfl⟩) sk, sk⟩ = .ok o ∧ o.amount = 2 ^ 40 + 5 := by
  obtain ⟨o, m, h⟩ := C20_build_succeeds_partial recR recR_laws recX (fun _ => ⟨List.replicate 20 0, rfl⟩) 12
    ⟨List.replicate 32 9, 12⟩ ⟨2 ^ 40 + 5, ⟨List.replicate 32 7, rfl⟩, true, true,
        toyPrims.pubOf (fun _ => ⟨List.replicate 20 0, rfl⟩) sk⟩ sk hk rfl (fun _ _ => ⟨_, rfl⟩)
  obtain ⟨h1, h2, -⟩ := C20_open_built recR recR_laws recX (fun _ => ⟨List.replicate 20 0, rfl⟩) 12 ⟨by norm_num, by norm_num⟩ _ _ sk rfl o m h
  exact ⟨o, m, h, h1, h2⟩

/-- a memo made for a hidden amount, with a plaintext of 8 bytes, is refused for a hidden type -/
example (k : toyKeys.EdSK) : ∃ m b, recR.decrypt m ⟨toyPrims.pubOf (fun _ => ⟨List.replicate 20 0, rfl⟩) (.ed25519 k), .ed25519 k⟩ =
    .ok b ∧ b.length ≠ 32 := by
  obtain ⟨lock, hl⟩ := (C38_encryption_succeeds _ toyPrims_laws (fun _ => ⟨List.replicate 20 0, rfl⟩) ⟨List.replicate 32 9, 12⟩
    (List.replicate 8 1)).1 k
  exact ⟨⟨.ed25519, [], lock⟩, List.replicate 8 1, C38_transfer_keys _ toyPrims_laws _ _ _ _ _ hl, by simp⟩

example : Encoding recX := ⟨fun _ => rfl, fun _ _ h => (Option.some_injective _ h).symm, rfl⟩

example : ∀ n : Nat, 0 < n → n < 2 ^ 32 → (n : ℚ) ≠ 0 := fun n h _ => by positivity

end Verif.Xfr
