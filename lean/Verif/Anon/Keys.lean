import Verif.Anon.Spend
import Verif.Xfr.Hybrid

/-!
Property C54: owner memos of anonymous records (api/src/anon_xfr/mod.rs l.135-189, structs.rs l.126-215).
Property C56: anonymous keys as field scalars and as bytes (api/src/anon_xfr/keys.rs).
-/

namespace Verif.Anon

open Verif.Plonk Verif.Xfr

/-- What the code uses of secp256k1 and of asset types: affine coordinates of a point (`get_x`, `get_y`,
algebra/src/secp256k1.rs l.319-326), the group order, the bytes and the scalar of an asset type. -/
structure AnonExt (F AT E K : Type) extends MemoPrims E K where
  coord : K → Nat × Nat
  kOrder : Nat
  asScalar : AT → F
  atBytes : AT → Bytes
  atOf : Bytes → AT

/-- What is assumed of them.  The point at infinity is given coordinates that are not on the curve by arkworks, so the
coordinates determine the point. -/
structure AnonLaws {F AT E K : Type} [AddCommGroup E] [AddCommGroup K] (X : AnonExt F AT E K) : Prop where
  memo : MemoLaws X.toMemoPrims
  coord_lt : ∀ k, (X.coord k).1 < 2 ^ 256 ∧ (X.coord k).2 < 2 ^ 256
  coord_inj : ∀ k k', X.coord k = X.coord k' → k = k'
  order_pos : 0 < X.kOrder
  order_le : X.kOrder ≤ 2 ^ 256
  at_len : ∀ t, (X.atBytes t).length = 32
  at_rt : ∀ t, X.atOf (X.atBytes t) = t

section Defs

variable {F AT E K : Type} [Field F] [ScalarRepr F] [AddCommGroup E] [AddCommGroup K] [DecidableEq K] [DecidableEq F]
variable (X : AnonExt F AT E K) (p : Rescue.Params F)

/-- `BLSScalar::from_bytes` (algebra/src/bls12_381.rs l.309-316): little-endian, reduced modulo the order -/
def blsOf (b : Bytes) : Option F := if 32 < b.length then none else some (ofLE b : F)

/-- `BLSScalar::to_bytes` (l.304-306) -/
def blsBytes (x : F) : Bytes := leBytes 32 (ScalarRepr.val x)

/-- `SECP256K1Scalar::from_bytes` (algebra/src/secp256k1.rs l.273-280); a secret key is the number below the order -/
def AnonExt.scalarOf (b : Bytes) : Option Nat := if 32 < b.length then none else some (ofLE b % X.kOrder)

/-- `AXfrKeyPair` (keys.rs l.43-48) -/
structure AKeyPair (K : Type) where
  sec : Nat
  pub : K
  deriving DecidableEq

/-- `AXfrKeyPair::from_secret_key` (l.68-73) -/
def AnonExt.fromSecret (sk : Nat) : AKeyPair K := ⟨sk, sk • X.kBase⟩

/-- `get_secret_key_scalars` (l.78-85) -/
def skScalars (sk : Nat) : Option (SK F) := do
  let first ← blsOf ((leBytes 32 sk).take 31)
  let second ← blsOf ((leBytes 32 sk).drop 31)
  pure (first, second)

/-- `get_public_key_scalars` (l.125-140) -/
def AnonExt.pkScalars (k : K) : Option (PK F) := do
  let bytes := leBytes 32 (X.coord k).1 ++ leBytes 32 (X.coord k).2
  let first ← blsOf (bytes.take 31)
  let second ← blsOf ((bytes.drop 31).take 31)
  let third ← blsOf (bytes.drop 62)
  pure (first, second, third)

/-- `AXfrPubKey::zei_to_bytes` (l.23-25) -/
def AnonExt.pubBytes (k : K) : Bytes := X.kCompress k

/-- `AXfrPubKey::zei_from_bytes` (l.26-36) -/
def AnonExt.pubOfBytes (b : Bytes) : Option K := if b.length ≠ 33 then none else X.kDecompress b

/-- `AXfrKeyPair::zei_to_bytes` (l.186-191) -/
def AnonExt.pairBytes (kp : AKeyPair K) : Bytes := leBytes 32 kp.sec ++ X.pubBytes kp.pub

/-- `AXfrKeyPair::zei_from_bytes` (l.193-209) -/
def AnonExt.pairOfBytes (b : Bytes) : Option (AKeyPair K) :=
  if b.length ≠ 32 + 33 then none
  else do
    let s ← X.scalarOf (b.take 32)
    let k ← X.pubOfBytes (b.drop 32)
    pure ⟨s, k⟩

/-- `AxfrOwnerMemo` (structs.rs l.309-316) -/
structure AMemo (K : Type) where
  point : K
  ctext : Bytes
  deriving DecidableEq

/-- `OpenAnonAssetRecord` (l.82-89) without the tree position -/
structure OpenAbar (F AT K : Type) where
  amount : UInt64
  ty : AT
  blind : F
  pub : K
  memo : Option (AMemo K)

/-- `commit` (mod.rs l.223-247) of an open record, `AnonAssetRecord::from_oabar` (structs.rs l.42-55) -/
def AnonExt.commitment (o : OpenAbar F AT K) : Option F :=
  (X.pkScalars o.pub).map fun pk => commit p pk o.blind (o.amount.toNat : F) (X.asScalar o.ty)

/-- the message of the memo (l.169-172) -/
def AnonExt.memoMsg (o : OpenAbar F AT K) : Bytes :=
  leBytes 8 o.amount.toNat ++ (X.atBytes o.ty ++ blsBytes o.blind)

/-- `OpenAnonAssetRecordBuilder::finalize` (l.163-176) with the random blinding factor `blind` and the random share `n` of the
encryption -/
def AnonExt.finalize (blind : F) (n : Nat) (o : OpenAbar F AT K) : Option (OpenAbar F AT K) :=
  if o.memo.isSome then none
  else do
    let o := { o with blind := blind }
    let c ← X.encK n o.pub (X.memoMsg o)
    pure { o with memo := some ⟨c.1, c.2⟩ }

/-- `build` with `sanity_check` (l.179-183, 207-219); the default public key is the point at infinity -/
def buildAbar (o : OpenAbar F AT K) : Option (OpenAbar F AT K) :=
  if o.pub = 0 then none else if o.memo.isNone then none else some o

/-- `parse_memo` (mod.rs l.135-174) -/
def AnonExt.parseMemo (b : Bytes) (kp : AKeyPair K) (abar : F) : Option (UInt64 × AT × F) :=
  if b.length ≠ 8 + 32 + 32 then none
  else do
    let amount := UInt64.ofNat (ofLE (b.take 8))
    let ty := X.atOf ((b.drop 8).take 32)
    let blind ← blsOf ((b.drop 40).take 32)
    let pk ← X.pkScalars kp.pub
    let expected := hash4 p (hash4 p blind (amount.toNat : F) (X.asScalar ty) pk.1) pk.2.1 pk.2.2 0
    if expected ≠ abar then none else pure (amount, ty, blind)

/-- `decrypt_memo` (l.182-189) -/
def AnonExt.decryptMemo (m : AMemo K) (kp : AKeyPair K) (abar : F) : Option (UInt64 × AT × F) := do
  let b ← X.decK kp.sec m.point m.ctext
  X.parseMemo p b kp abar

/-- `OpenAnonAssetRecordBuilder::from_abar` (structs.rs l.191-205) -/
def AnonExt.fromAbar (abar : F) (m : AMemo K) (kp : AKeyPair K) : Option (OpenAbar F AT K) := do
  let v ← X.decryptMemo p m kp abar
  pure ⟨v.1, v.2.1, v.2.2, kp.pub, some m⟩

end Defs

section Proofs

variable {F AT E K : Type} [Field F] [ScalarRepr F] [AddCommGroup E] [AddCommGroup K] [DecidableEq K] [DecidableEq F]
variable (X : AnonExt F AT E K) (p : Rescue.Params F) (hX : AnonLaws X)

omit [DecidableEq F] in
theorem blsOf_blsBytes (x : F) : blsOf (blsBytes x) = some x := by
  unfold blsOf blsBytes
  rw [if_neg (by simp), ofLE_leBytes_of_lt (lt_of_lt_of_le (ScalarRepr.val_lt x) (ScalarRepr.order_le (F := F))),
    ScalarRepr.cast_val]

omit [ScalarRepr F] [DecidableEq F] in
theorem blsOf_eq (b : Bytes) (h : b.length ≤ 32) : blsOf b = some (ofLE b : F) := by
  unfold blsOf
  rw [if_neg (by omega)]

/-- strings of at most 31 bytes are read without reduction -/
theorem blsOf_inj (ho : 2 ^ 248 ≤ ScalarRepr.order F) (a b : Bytes) (hl : a.length = b.length) (h31 : a.length ≤ 31)
    (h : (ofLE a : F) = (ofLE b : F)) : a = b := by
  have lt : ∀ c : Bytes, c.length ≤ 31 → ofLE c < ScalarRepr.order F := fun c hc =>
    lt_of_lt_of_le (ofLE_lt c) (le_trans (Nat.pow_le_pow_right (by norm_num) hc) (le_trans (by norm_num) ho))
  have h2 := cast_inj_of_lt (F := F) (lt a h31) (lt b (by omega)) h
  exact ofLE_inj hl h2

omit [DecidableEq F] in
theorem skScalars_eq (sk : Nat) : (skScalars sk : Option (SK F)) =
    some ((ofLE ((leBytes 32 sk).take 31) : F), (ofLE ((leBytes 32 sk).drop 31) : F)) := by
  unfold skScalars
  have hl : (leBytes 32 sk).length = 32 := leBytes_length _ _
  generalize leBytes 32 sk = b at hl ⊢
  rw [blsOf_eq _ (by rw [List.length_take]; omega), blsOf_eq _ (by rw [List.length_drop]; omega)]
  rfl

omit [DecidableEq F] [DecidableEq K] [AddCommGroup E] [AddCommGroup K] in
theorem pkScalars_eq (k : K) : X.pkScalars k = some
    ((ofLE ((leBytes 32 (X.coord k).1 ++ leBytes 32 (X.coord k).2).take 31) : F),
      (ofLE (((leBytes 32 (X.coord k).1 ++ leBytes 32 (X.coord k).2).drop 31).take 31) : F),
      (ofLE ((leBytes 32 (X.coord k).1 ++ leBytes 32 (X.coord k).2).drop 62) : F)) := by
  unfold AnonExt.pkScalars
  have hl : (leBytes 32 (X.coord k).1 ++ leBytes 32 (X.coord k).2).length = 64 := by
    rw [List.length_append, leBytes_length, leBytes_length]
  generalize leBytes 32 (X.coord k).1 ++ leBytes 32 (X.coord k).2 = b at hl ⊢
  simp only
  rw [blsOf_eq _ (by rw [List.length_take]; omega), blsOf_eq _ (by rw [List.length_take, List.length_drop]; omega),
    blsOf_eq _ (by rw [List.length_drop]; omega)]
  rfl

/-- C56: the two scalars of a secret key determine it. -/
theorem C56_secret_scalars_injective (ho : 2 ^ 248 ≤ ScalarRepr.order F) (s s' : Nat) (hs : s < 2 ^ 256) (hs' : s' < 2 ^ 256)
    (h : (skScalars s : Option (SK F)) = skScalars s') : (skScalars s : Option (SK F)).isSome = true ∧ s = s' := by
  refine ⟨by rw [skScalars_eq]; rfl, ?_⟩
  rw [skScalars_eq, skScalars_eq, Option.some.injEq, Prod.mk.injEq] at h
  refine leBytes_inj (n := 32) (lt_of_lt_of_le hs (by norm_num)) (lt_of_lt_of_le hs' (by norm_num)) ?_
  have hl : (leBytes 32 s).length = 32 := leBytes_length _ _
  have hl' : (leBytes 32 s').length = 32 := leBytes_length _ _
  generalize leBytes 32 s = b at h hl ⊢
  generalize leBytes 32 s' = b' at h hl' ⊢
  have h1 := blsOf_inj (F := F) ho (b.take 31) (b'.take 31) (by simp [hl, hl']) (by simp) h.1
  have h2 := blsOf_inj (F := F) ho (b.drop 31) (b'.drop 31) (by simp [hl, hl']) (by simp [hl]) h.2
  rw [← List.take_append_drop 31 b, h1, h2, List.take_append_drop]

omit [DecidableEq K] in
include hX in
/-- C56: the three scalars of a public key determine it. -/
theorem C56_public_scalars_injective (ho : 2 ^ 248 ≤ ScalarRepr.order F) (k k' : K) (h : X.pkScalars k = X.pkScalars k') :
    (X.pkScalars k).isSome = true ∧ k = k' := by
  refine ⟨by rw [pkScalars_eq]; rfl, hX.coord_inj _ _ ?_⟩
  rw [pkScalars_eq, pkScalars_eq, Option.some.injEq, Prod.mk.injEq, Prod.mk.injEq] at h
  generalize hb : leBytes 32 (X.coord k).1 ++ leBytes 32 (X.coord k).2 = b at h
  generalize hb' : leBytes 32 (X.coord k').1 ++ leBytes 32 (X.coord k').2 = b' at h
  have hl : b.length = 64 := by rw [← hb]; simp
  have hl' : b'.length = 64 := by rw [← hb']; simp
  have h1 := blsOf_inj (F := F) ho (b.take 31) (b'.take 31) (by simp [hl, hl']) (by simp) h.1
  have h2 := blsOf_inj (F := F) ho ((b.drop 31).take 31) ((b'.drop 31).take 31) (by simp [hl, hl']) (by simp) h.2.1
  have h3 := blsOf_inj (F := F) ho (b.drop 62) (b'.drop 62) (by simp [hl, hl']) (by simp [hl]) h.2.2
  have e : b = b' := by
    rw [← List.take_append_drop 31 b, ← List.take_append_drop 31 b', h1, ← List.take_append_drop 31 (b.drop 31),
      ← List.take_append_drop 31 (b'.drop 31), h2, List.drop_drop, List.drop_drop]
    norm_num
    exact h3
  rw [← hb, ← hb'] at e
  obtain ⟨e1, e2⟩ := List.append_inj e (by simp)
  apply Prod.ext
  · exact leBytes_inj (n := 32) (lt_of_lt_of_le (hX.coord_lt k).1 (by norm_num))
      (lt_of_lt_of_le (hX.coord_lt k').1 (by norm_num)) e1
  · exact leBytes_inj (n := 32) (lt_of_lt_of_le (hX.coord_lt k).2 (by norm_num))
      (lt_of_lt_of_le (hX.coord_lt k').2 (by norm_num)) e2

omit [DecidableEq K] in
include hX in
/-- C56: the scalars of a public key belong to one secret key only, the hypothesis of `C68_one_nullifier`.  `hbase`: the base
point has the order of the scalar field. -/
theorem C56_one_secret (ho : 2 ^ 248 ≤ ScalarRepr.order F)
    (hbase : ∀ m n, m < X.kOrder → n < X.kOrder → m • X.kBase = n • X.kBase → m = n) (pk : PK F) (sk sk' : SK F)
    (s s' : Nat) (hs : s < X.kOrder) (hs' : s' < X.kOrder)
    (h1 : X.pkScalars (X.fromSecret s).pub = some pk) (h2 : skScalars s = some sk)
    (h1' : X.pkScalars (X.fromSecret s').pub = some pk) (h2' : skScalars s' = some sk') : sk = sk' := by
  have := (C56_public_scalars_injective X hX ho _ _ (h1.trans h1'.symm)).2
  have e := hbase s s' hs hs' this
  rw [e, h2'] at h2
  exact (Option.some_injective _ h2).symm

omit [Field F] [ScalarRepr F] [DecidableEq F] [DecidableEq K] in
include hX in
/-- C56: the bytes of a public key and of a key pair decode to it. -/
theorem C56_bytes_round_trip (kp : AKeyPair K) (hs : kp.sec < X.kOrder) :
    X.pubOfBytes (X.pubBytes kp.pub) = some kp.pub ∧ X.pairOfBytes (X.pairBytes kp) = some kp := by
  have h0 : X.pubOfBytes (X.pubBytes kp.pub) = some kp.pub := by
    unfold AnonExt.pubOfBytes AnonExt.pubBytes
    rw [if_neg (by simp [hX.memo.k_len]), hX.memo.k_rt]
  refine ⟨h0, ?_⟩
  have h1 : (leBytes 32 kp.sec ++ X.pubBytes kp.pub).take 32 = leBytes 32 kp.sec := List.take_left' (leBytes_length _ _)
  have h2 : (leBytes 32 kp.sec ++ X.pubBytes kp.pub).drop 32 = X.pubBytes kp.pub := List.drop_left' (leBytes_length _ _)
  unfold AnonExt.pairOfBytes AnonExt.pairBytes
  rw [if_neg (by simp [AnonExt.pubBytes, hX.memo.k_len]), h1, h2, h0]
  unfold AnonExt.scalarOf
  rw [if_neg (by simp), ofLE_leBytes_of_lt (lt_of_lt_of_le hs (le_trans hX.order_le (by norm_num))), Nat.mod_eq_of_lt hs]
  rfl

omit [Field F] [ScalarRepr F] [DecidableEq F] [DecidableEq K] in
include hX in
/-- Decoding a key pair does not compare its halves: a secret key together with any public key is accepted. -/
theorem C56_pair_not_compared (s : Nat) (hs : s < X.kOrder) (k : K) (hk : k ≠ (X.fromSecret s).pub) :
    ∃ kp, X.pairOfBytes (leBytes 32 s ++ X.pubBytes k) = some kp ∧ kp ≠ X.fromSecret kp.sec := by
  refine ⟨⟨s, k⟩, (C56_bytes_round_trip X hX ⟨s, k⟩ hs).2, fun h => hk ?_⟩
  rw [AKeyPair.mk.injEq] at h
  exact h.2

omit [Field F] [ScalarRepr F] [DecidableEq F] [DecidableEq K] [AddCommGroup E] [AddCommGroup K] in
/-- C56: only strings of 65 bytes are key pairs. -/
theorem C56_pair_length (b : Bytes) (kp : AKeyPair K) (h : X.pairOfBytes b = some kp) : b.length = 65 := by
  unfold AnonExt.pairOfBytes at h
  split at h
  · simp at h
  · omega

omit [Field F] [ScalarRepr F] [DecidableEq F] [DecidableEq K] in
include hX in
/-- The secret half of a key pair is reduced on decoding: the bytes of a small secret key plus the order are other bytes of
the same pair. -/
theorem C56_pair_bytes_malleable (kp : AKeyPair K) (hs : kp.sec < X.kOrder) (hroom : kp.sec + X.kOrder < 2 ^ 256) :
    X.pairOfBytes (leBytes 32 (kp.sec + X.kOrder) ++ X.pubBytes kp.pub) = some kp ∧
    leBytes 32 (kp.sec + X.kOrder) ++ X.pubBytes kp.pub ≠ X.pairBytes kp := by
  have h1 : (leBytes 32 (kp.sec + X.kOrder) ++ X.pubBytes kp.pub).take 32 = leBytes 32 (kp.sec + X.kOrder) :=
    List.take_left' (leBytes_length _ _)
  have h2 : (leBytes 32 (kp.sec + X.kOrder) ++ X.pubBytes kp.pub).drop 32 = X.pubBytes kp.pub :=
    List.drop_left' (leBytes_length _ _)
  have hlt : kp.sec + X.kOrder < 256 ^ 32 := lt_of_lt_of_le hroom (by norm_num)
  constructor
  · unfold AnonExt.pairOfBytes
    rw [if_neg (by simp [AnonExt.pubBytes, hX.memo.k_len]), h1, h2, (C56_bytes_round_trip X hX kp hs).1]
    unfold AnonExt.scalarOf
    rw [if_neg (by simp), ofLE_leBytes_of_lt hlt, Nat.add_mod_right, Nat.mod_eq_of_lt hs]
    rfl
  · intro h
    have h3 := List.append_inj_left h (by simp)
    have h4 := congrArg ofLE h3
    rw [ofLE_leBytes_of_lt hlt, ofLE_leBytes_of_lt (by omega)] at h4
    omega

omit [DecidableEq K] [AddCommGroup E] [AddCommGroup K] in
theorem commitment_isSome (o : OpenAbar F AT K) : ∃ c, X.commitment p o = some c := by
  unfold AnonExt.commitment
  rw [pkScalars_eq]
  exact ⟨_, rfl⟩

include hX in
/-- C54: whatever record the builder makes for a key pair, the owner of the pair recovers from the published commitment and the
memo the very same record: amount, type and blinding factor. -/
theorem C54_round_trip (sk : Nat) (amount : UInt64) (ty : AT) (b0 blind : F) (n : Nat) (o : OpenAbar F AT K)
    (h : (X.finalize blind n ⟨amount, ty, b0, (X.fromSecret sk).pub, none⟩).bind buildAbar = some o) :
    o.amount = amount ∧ o.ty = ty ∧ o.blind = blind ∧
    ∃ m c, o.memo = some m ∧ X.commitment p o = some c ∧
      X.decryptMemo p m (X.fromSecret sk) c = some (amount, ty, blind) ∧
      (X.fromAbar p c m (X.fromSecret sk)).bind buildAbar = some o := by
  obtain ⟨o', hf, hb⟩ := Option.bind_eq_some_iff.mp h
  have hoo : o' = o ∧ o.pub ≠ 0 := by
    unfold buildAbar at hb
    split at hb
    · simp at hb
    · split at hb
      · simp at hb
      · rename_i h1 h2
        have := Option.some_injective _ hb
        subst this
        exact ⟨rfl, h1⟩
  obtain ⟨rfl, hpub⟩ := hoo
  unfold AnonExt.finalize at hf
  simp only [Option.isSome_none, Bool.false_eq_true, if_false] at hf
  obtain ⟨⟨pt, ct⟩, henc, hf⟩ := Option.bind_eq_some_iff.mp hf
  have hf := Option.some_injective _ hf
  subst hf
  refine ⟨rfl, rfl, rfl, ⟨pt, ct⟩, ?_⟩
  obtain ⟨c, hc⟩ := commitment_isSome X p
    (⟨amount, ty, blind, (X.fromSecret sk).pub, some ⟨pt, ct⟩⟩ : OpenAbar F AT K)
  refine ⟨c, rfl, hc, ?_⟩
  have hdec := C38_secp256k1_round_trip X.toMemoPrims hX.memo n sk _ pt ct henc
  have hparse : X.decryptMemo p ⟨pt, ct⟩ (X.fromSecret sk) c = some (amount, ty, blind) := by
    unfold AnonExt.decryptMemo
    rw [show (X.fromSecret sk).sec = sk from rfl]
    simp only [hdec, Option.bind_eq_bind, Option.bind_some]
    simp only [AnonExt.memoMsg]
    unfold AnonExt.parseMemo
    have l1 : ∀ r : Bytes, (leBytes 8 amount.toNat ++ r).take 8 = leBytes 8 amount.toNat :=
      fun r => List.take_left' (leBytes_length _ _)
    have l2 : ∀ r : Bytes, (leBytes 8 amount.toNat ++ r).drop 8 = r := fun r => List.drop_left' (leBytes_length _ _)
    have l3 : ∀ r : Bytes, (X.atBytes ty ++ r).take 32 = X.atBytes ty := fun r => List.take_left' (hX.at_len _)
    have l4 : (leBytes 8 amount.toNat ++ (X.atBytes ty ++ blsBytes blind)).drop 40 = blsBytes blind := by
      rw [← List.append_assoc]
      exact List.drop_left' (by simp [hX.at_len])
    have l5 : (blsBytes blind).take 32 = blsBytes blind := List.take_of_length_le (by simp [blsBytes])
    rw [if_neg (by simp [hX.at_len, blsBytes]), l1, l2, l3, l4, l5, blsOf_blsBytes, hX.at_rt,
      ofLE_leBytes_of_lt (lt_of_lt_of_le amount.toNat_lt (by norm_num))]
    unfold AnonExt.commitment at hc
    obtain ⟨pk, hpk, hc⟩ := Option.map_eq_some_iff.mp hc
    simp only [Option.bind_some, Option.bind_eq_bind, UInt64.ofNat_toNat]
    rw [show X.pkScalars (X.fromSecret sk).pub = some pk from hpk]
    simp only [Option.bind_some]
    rw [if_neg (by rw [← hc]; simp [commit])]
    rfl
  refine ⟨hparse, ?_⟩
  unfold AnonExt.fromAbar
  rw [hparse]
  simp only [Option.bind_eq_bind, Option.bind_some, Option.pure_def]
  unfold buildAbar
  rw [if_neg hpub]
  rfl

omit [DecidableEq K] in
/-- C54: anything `parse_memo` accepts has the right length and re-commits to the record; the values are those in the bytes. -/
theorem C54_accepted_recommits (b : Bytes) (kp : AKeyPair K) (abar : F) (amount : UInt64) (ty : AT) (blind : F)
    (h : X.parseMemo p b kp abar = some (amount, ty, blind)) :
    b.length = 72 ∧ amount.toNat = ofLE (b.take 8) ∧ ty = X.atOf ((b.drop 8).take 32) ∧ blind = (ofLE (b.drop 40) : F) ∧
    ∃ pk, X.pkScalars kp.pub = some pk ∧ commit p pk blind (amount.toNat : F) (X.asScalar ty) = abar := by
  unfold AnonExt.parseMemo at h
  split at h
  · simp at h
  · rename_i hlen
    push Not at hlen
    obtain ⟨bl, hbl, h⟩ := Option.bind_eq_some_iff.mp h
    obtain ⟨pk, hpk, h⟩ := Option.bind_eq_some_iff.mp h
    simp only at h
    split at h
    · simp at h
    · rename_i hne
      push Not at hne
      have h := Option.some_injective _ h
      simp only [Prod.mk.injEq] at h
      obtain ⟨rfl, rfl, rfl⟩ := h
      have ht : (b.drop 40).take 32 = b.drop 40 := List.take_of_length_le (by simp; omega)
      refine ⟨hlen, ?_, rfl, ?_, pk, hpk, hne⟩
      · have : ofLE (b.take 8) < 256 ^ 8 := by
          refine lt_of_lt_of_le (ofLE_lt _) (Nat.pow_le_pow_right (by norm_num) (by simp))
        exact UInt64.toNat_ofNat_of_lt' (lt_of_lt_of_le this (by norm_num))
      · rw [ht] at hbl
        unfold blsOf at hbl
        split at hbl
        · simp at hbl
        · exact (Option.some_injective _ hbl).symm

omit [DecidableEq K] in
include hX in
/-- C54: so a memo cannot lie.  If a record commits to an amount, a type and a blinding factor under some public key, whatever
an accepted memo says about it is the same, or the two openings contain the collision `commitCollision` of the hash. -/
theorem C54_memo_cannot_lie (ho : 2 ^ 248 ≤ ScalarRepr.order F) (o : OpenAbar F AT K) (b : Bytes) (kp : AKeyPair K) (abar : F)
    (ho' : X.commitment p o = some abar) (amount : UInt64) (ty : AT) (blind : F)
    (h : X.parseMemo p b kp abar = some (amount, ty, blind)) :
    (amount = o.amount ∧ X.asScalar ty = X.asScalar o.ty ∧ blind = o.blind ∧ kp.pub = o.pub) ∨
    ∃ pk pk', X.pkScalars kp.pub = some pk ∧ X.pkScalars o.pub = some pk' ∧
      Collides p (commitCollision p ⟨pk, blind, amount.toNat, X.asScalar ty⟩
          ⟨pk', o.blind, o.amount.toNat, X.asScalar o.ty⟩).1
        (commitCollision p ⟨pk, blind, amount.toNat, X.asScalar ty⟩ ⟨pk', o.blind, o.amount.toNat, X.asScalar o.ty⟩).2 := by
  obtain ⟨-, -, -, -, pk, hpk, hc⟩ := C54_accepted_recommits X p b kp abar amount ty blind h
  unfold AnonExt.commitment at ho'
  obtain ⟨pk', hpk', hc'⟩ := Option.map_eq_some_iff.mp ho'
  by_cases he : (⟨pk, blind, amount.toNat, X.asScalar ty⟩ : CommitIn F) = ⟨pk', o.blind, o.amount.toNat, X.asScalar o.ty⟩
  · left
    rw [CommitIn.mk.injEq] at he
    obtain ⟨rfl, h1, h2, h3⟩ := he
    refine ⟨?_, h3, h1, (C56_public_scalars_injective X hX ho _ _ (hpk.trans hpk'.symm)).2⟩
    have hlt : ∀ a : UInt64, a.toNat < ScalarRepr.order F := fun a =>
      lt_of_lt_of_le a.toNat_lt (le_trans (by norm_num) ho)
    exact UInt64.toNat_inj.mp (cast_inj_of_lt (F := F) (hlt _) (hlt _) h2)
  · exact .inr ⟨pk, pk', hpk, hpk', C55_commitment_binding p _ _ (hc.trans hc'.symm) he⟩

end Proofs

/-! ### The hypotheses can be met -/

@[reducible] def anonX : AnonExt (ZMod Bls.r) (Fix 32) (ZMod 97) (ZMod 101) where
  toMemoPrims := toyPrims
  coord := fun k => (k.val, k.val + 1)
  kOrder := 101
  asScalar := fun t => (ofLE t.1 : ZMod Bls.r)
  atBytes := fun t => t.1
  atOf := fun b => if h : b.length = 32 then ⟨b, h⟩ else ⟨List.replicate 32 0, rfl⟩

theorem anonX_laws : AnonLaws anonX where
  memo := toyPrims_laws
  coord_lt := fun k => by
    have := ZMod.val_lt k
    constructor
    · exact lt_of_lt_of_le this (by norm_num)
    · exact lt_of_lt_of_le (Nat.succ_lt_succ this) (by norm_num)
  coord_inj := fun k k' h => by
    simp only [anonX, Prod.mk.injEq] at h
    exact ZMod.val_injective 101 h.1
  order_pos := by norm_num
  order_le := by norm_num
  at_len := fun t => t.2
  at_rt := fun t => by simp [anonX, t.2]

example : 2 ^ 248 ≤ ScalarRepr.order (ZMod Bls.r) := by
  show 2 ^ 248 ≤ Bls.r
  unfold Bls.r
  norm_num

/-- the base point of the example has order 101 -/
example : ∀ m n, m < anonX.kOrder → n < anonX.kOrder → m • anonX.kBase = n • anonX.kBase → m = n := by
  have : ∀ m n : Fin 101, (m.1 • (7 : ZMod 101) = n.1 • (7 : ZMod 101)) → m = n := by decide +kernel
  intro m n hm hn h
  exact congrArg Fin.val (this ⟨m, hm⟩ ⟨n, hn⟩ h)

/-- two byte strings for one pair of keys -/
example : anonX.pairOfBytes (leBytes 32 (3 + 101) ++ anonX.pubBytes (anonX.fromSecret 3).pub) = some (anonX.fromSecret 3) :=
  (C56_pair_bytes_malleable anonX anonX_laws (anonX.fromSecret 3) (by decide) (by decide)).1

/-- a record is built, for any hash parameters -/
example : ∃ o, (anonX.finalize 8 12 ⟨2 ^ 40 + 5, ⟨List.replicate 32 7, rfl⟩, 0, (anonX.fromSecret 3).pub, none⟩).bind buildAbar =
    some o := by
  have h : (anonX.fromSecret 3).pub ≠ 0 := by
    show (3 • (7 : ZMod 101)) ≠ 0
    decide
  have he : ∀ msg, ∃ c, anonX.encK 12 (anonX.fromSecret 3).pub msg = some c := fun msg => ⟨_, rfl⟩
  obtain ⟨c, hc⟩ := he (anonX.memoMsg ⟨2 ^ 40 + 5, ⟨List.replicate 32 7, rfl⟩, 8, (anonX.fromSecret 3).pub, none⟩)
  unfold AnonExt.finalize
  simp only [Option.isSome_none, Bool.false_eq_true, if_false]
  rw [hc]
  refine ⟨⟨2 ^ 40 + 5, ⟨List.replicate 32 7, rfl⟩, 8, (anonX.fromSecret 3).pub, some ⟨c.1, c.2⟩⟩, ?_⟩
  simp only [Option.bind_eq_bind, Option.bind_some, Option.pure_def]
  unfold buildAbar
  rw [if_neg h]
  rfl

end Verif.Anon
