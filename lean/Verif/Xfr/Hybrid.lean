import Mathlib.Algebra.Group.Basic
import Mathlib.Algebra.Module.NatInt
import Mathlib.Data.ZMod.Basic
import Verif.Xfr.Keys

/-!
Property C38: hybrid encryption (crypto/src/basic/hybrid_encryption.rs) and the encryption under secp256k1 keys
(api/src/anon_xfr/keys.rs l.89-182), which the transfer keys of api/src/xfr/sig.rs dispatch to.
-/

namespace Verif.Xfr

/-- The primitives behind encryption and shared points.  `E` are the points of the Edwards curve of Ed25519, `K` the points of
secp256k1. -/
structure MemoPrims (E K : Type) extends KeyPrims where
  /-- `ED25519_BASEPOINT_POINT`, `compress`, `CompressedEdwardsY::decompress` -/
  edBase : E
  edCompress : E → Bytes
  edDecompress : Bytes → Option E
  /-- first half of the SHA-512 hash of an Ed25519 seed (`ExpandedSecretKey::from`, before clamping) -/
  edHash : EdSK → Bytes
  /-- `Ed25519PublicKey::from(&SecretKey)` -/
  edOfSecret : EdSK → EdPK
  /-- `SECP256K1G1::get_base`, `to_compressed_bytes`, `from_compressed_bytes` -/
  kBase : K
  kCompress : K → Bytes
  kDecompress : Bytes → Option K
  /-- the number of a secp256k1 secret key, the point of a public key, `Secp256k1PublicKey::from_secret_key` -/
  scNum : ScSK → Nat
  scPoint : ScPK → K
  scOfSecret : ScSK → ScPK
  /-- X25519 of a (clamped) scalar and a u-coordinate, the u-coordinate nine, `to_montgomery().to_bytes()` -/
  x25519 : Nat → Bytes → Bytes
  xBase : Bytes
  montgomery : E → Bytes
  /-- `Sha256`, the first 32 bytes of `Sha512` -/
  sha256 : Bytes → Bytes
  sha512half : Bytes → Bytes
  /-- key stream of AES-256-CTR with counter zero -/
  keystream : Bytes → Nat → UInt8
  /-- AES-256-GCM with nonce zero -/
  gcmEnc : Bytes → Bytes → Option Bytes
  gcmDec : Bytes → Bytes → Option Bytes

/-- `s[0] &= 248; s[31] &= 127; s[31] |= 64` (`clamp_scalar` of x25519-dalek) -/
def clamp (b : Bytes) : Bytes := (b.modify 0 (· &&& 248)).modify 31 (fun x => (x &&& 127) ||| 64)

/-- `lower[0] &= 248; lower[31] &= 63; lower[31] |= 64` (`ExpandedSecretKey::from` of ed25519-dalek) -/
def edClamp (b : Bytes) : Bytes := (b.modify 0 (· &&& 248)).modify 31 (fun x => (x &&& 63) ||| 64)

/-- `Scalar::from_bits`: clears the top bit, does not reduce -/
def fromBits (b : Bytes) : Bytes := b.modify 31 (· &&& 127)

/-- What is assumed of the primitives. -/
structure MemoLaws {E K : Type} [AddCommGroup E] [AddCommGroup K] (P : MemoPrims E K) : Prop where
  keys : KeyLaws P.toKeyPrims
  ed_len : ∀ p, (P.edCompress p).length = 32
  ed_rt : ∀ p, P.edDecompress (P.edCompress p) = some p
  hash_len : ∀ s, (P.edHash s).length = 32
  /-- the public key of a seed is the clamped hash of the seed times the base point -/
  ed_pub : ∀ s, P.edPkBytes (P.edOfSecret s) = P.edCompress (ofLE (edClamp (P.edHash s)) • P.edBase)
  k_len : ∀ p, (P.kCompress p).length = 33
  k_rt : ∀ p, P.kDecompress (P.kCompress p) = some p
  k_pub : ∀ s, P.scPoint (P.scOfSecret s) = P.scNum s • P.kBase
  x_len : ∀ n u, (P.x25519 n u).length = 32
  /-- Diffie-Hellman -/
  x_comm : ∀ a b, P.x25519 a (P.x25519 b P.xBase) = P.x25519 b (P.x25519 a P.xBase)
  /-- the map between the curves takes multiples of one base point to multiples of the other -/
  mont : ∀ n, P.montgomery (n • P.edBase) = P.x25519 n P.xBase
  gcm : ∀ k m c, P.gcmEnc k m = some c → P.gcmDec k c = some m

section Bits

theorem clamp_edClamp (b : Bytes) : clamp (edClamp b) = edClamp b := by
  apply List.ext_getElem?
  intro i
  simp only [clamp, edClamp, List.getElem?_modify]
  cases b[i]? with
  | none => simp
  | some x =>
    have h1 : ∀ x : UInt8, x &&& 248 &&& 248 = x &&& 248 := fun x => by
      apply UInt8.toBitVec_inj.mp
      simp [BitVec.and_assoc]
    have h2 : ∀ x : UInt8, (x &&& 63 ||| 64) &&& 127 ||| 64 = x &&& 63 ||| 64 := by
      intro x
      have : ∀ n : Fin 256, ((UInt8.ofNat n.1 &&& 63 ||| 64) &&& 127 ||| 64) = UInt8.ofNat n.1 &&& 63 ||| 64 := by
        decide +kernel
      have h := this ⟨x.toNat, x.toNat_lt⟩
      simpa using h
    by_cases h0 : i = 0
    · subst h0
      simp [h1]
    · by_cases h31 : i = 31
      · subst h31
        simp [h2]
      · simp [Ne.symm h0, Ne.symm h31]

theorem clamp_clamp (b : Bytes) : clamp (clamp b) = clamp b := by
  apply List.ext_getElem?
  intro i
  simp only [clamp, List.getElem?_modify]
  cases b[i]? with
  | none => simp
  | some x =>
    have h1 : ∀ x : UInt8, x &&& 248 &&& 248 = x &&& 248 := fun x => by
      apply UInt8.toBitVec_inj.mp
      simp [BitVec.and_assoc]
    have h2 : ∀ x : UInt8, (x &&& 127 ||| 64) &&& 127 ||| 64 = x &&& 127 ||| 64 := by
      intro x
      have : ∀ n : Fin 256, ((UInt8.ofNat n.1 &&& 127 ||| 64) &&& 127 ||| 64) = UInt8.ofNat n.1 &&& 127 ||| 64 := by
        decide +kernel
      have h := this ⟨x.toNat, x.toNat_lt⟩
      simpa using h
    by_cases h0 : i = 0
    · subst h0
      simp [h1]
    · by_cases h31 : i = 31
      · subst h31
        simp [h2]
      · simp [Ne.symm h0, Ne.symm h31]

theorem fromBits_edClamp (b : Bytes) : fromBits (edClamp b) = edClamp b := by
  apply List.ext_getElem?
  intro i
  simp only [fromBits, edClamp, List.getElem?_modify]
  cases b[i]? with
  | none => simp
  | some x =>
    have h2 : ∀ x : UInt8, (x &&& 63 ||| 64) &&& 127 = x &&& 63 ||| 64 := by
      intro x
      have : ∀ n : Fin 256, ((UInt8.ofNat n.1 &&& 63 ||| 64) &&& 127) = UInt8.ofNat n.1 &&& 63 ||| 64 := by
        decide +kernel
      have h := this ⟨x.toNat, x.toNat_lt⟩
      simpa using h
    by_cases h31 : i = 31
    · subst h31
      simp [h2]
    · simp [Ne.symm h31]

@[simp] theorem edClamp_length (b : Bytes) : (edClamp b).length = b.length := by simp [edClamp]

@[simp] theorem clamp_length (b : Bytes) : (clamp b).length = b.length := by simp [clamp]

end Bits

variable {E K : Type} [AddCommGroup E] [AddCommGroup K] (P : MemoPrims E K)

/-- `symmetric_encrypt`, `symmetric_decrypt` (hybrid_encryption.rs l.253-269): both apply the key stream -/
def MemoPrims.sym (key msg : Bytes) : Bytes := msg.mapIdx (fun i x => x ^^^ P.keystream key i)

/-- `ZeiHybridCiphertext` (l.118-121) -/
structure HybridCt where
  ctext : Bytes
  epk : Fix 32
  deriving DecidableEq

/-- `ZeiHybridCiphertext::zei_to_bytes` (l.124-129) -/
def HybridCt.toBytes (c : HybridCt) : Bytes := c.epk.1 ++ c.ctext

/-- `ZeiHybridCiphertext::zei_from_bytes` (l.131-143) -/
def HybridCt.fromBytes (b : Bytes) : Option HybridCt :=
  if h : b.length < 32 then none
  else some ⟨b.drop 32, ⟨b.take 32, by simp; omega⟩⟩

variable (hP : MemoLaws P)

/-- An X25519 secret key is stored clamped: `StaticSecret::from`, `StaticSecret::new`.  `XSecretKey::zei_from_bytes` (l.70-82)
is this function on strings of 32 bytes. -/
def xSecret (b : Bytes) : Bytes := clamp b

/-- `XPublicKey::from` (l.42-48) -/
def MemoPrims.xPublic (sk : Bytes) : Bytes := P.x25519 (ofLE sk) P.xBase

/-- `symmetric_key_from_x25519_public_key` (l.205-217); `e` are the random bytes of the ephemeral secret -/
def MemoPrims.keyFromX (e pk : Bytes) : Bytes × Bytes :=
  (P.sha256 (P.x25519 (ofLE (clamp e)) pk), P.x25519 (ofLE (clamp e)) P.xBase)

include hP in
theorem keyFromX_len (e pk : Bytes) : (P.keyFromX e pk).2.length = 32 := hP.x_len _ _

/-- `hybrid_encrypt_x25519` (l.147-158) -/
def MemoPrims.hybridEncX (e pk msg : Bytes) : Option HybridCt :=
  if h : (P.keyFromX e pk).2.length = 32 then some ⟨P.sym (P.keyFromX e pk).1 msg, ⟨_, h⟩⟩ else none

/-- `hybrid_decrypt_with_x25519_secret_key` (l.176-182) with l.239-245 -/
def MemoPrims.hybridDecX (c : HybridCt) (sk : Bytes) : Bytes := P.sym (P.sha256 (P.x25519 (ofLE sk) c.epk.1)) c.ctext

/-- `hybrid_encrypt_ed25519` (l.161-173) with l.220-231; an undecodable public key panics -/
def MemoPrims.hybridEncEd (e : Bytes) (pk : P.EdPK) (msg : Bytes) : Res HybridCt := do
  let p ← Res.unwrap (P.edDecompress (P.edPkBytes pk))
  Res.unwrap (P.hybridEncX e (P.montgomery p) msg)

/-- `sec_key_as_scalar` (l.233-239) and `to_bytes` of the scalar: the clamped hash of the seed goes through
`RistrettoScalar::from_bytes` (algebra/src/ristretto.rs l.251-258), which does not reduce -/
def MemoPrims.edScalarBytes (sk : P.EdSK) : Bytes := fromBits (edClamp (P.edHash sk))

/-- `hybrid_decrypt_with_ed25519_secret_key` (l.185-191) with l.248-258 -/
def MemoPrims.hybridDecEd (c : HybridCt) (sk : P.EdSK) : Bytes := P.hybridDecX c (xSecret (P.edScalarBytes sk))

/-- `AXfrPubKey::encrypt` (api/src/anon_xfr/keys.rs l.143-182); `n` is the random share scalar -/
def MemoPrims.encK (n : Nat) (pk : K) (msg : Bytes) : Option (K × Bytes) :=
  (P.gcmEnc (P.sha512half (P.kCompress (n • pk))) msg).map fun c => (n • P.kBase, c)

/-- `AXfrSecretKey::decrypt` (l.89-120) -/
def MemoPrims.decK (sk : Nat) (share : K) (ctext : Bytes) : Option Bytes :=
  P.gcmDec (P.sha512half (P.kCompress (sk • share))) ctext

/-- Randomness of an encryption: bytes for the X25519 ephemeral secret, a number for the secp256k1 share. -/
structure EncRand where
  bytes : Bytes
  num : Nat

/-- `XfrPublicKey::hybrid_encrypt` (sig.rs l.184-204).  The conversion of a secp256k1 key between the two libraries
(`convert_point_libsecp256k1_to_algebra`, l.713-729) is taken to be the encoding of the same point. -/
def MemoPrims.pubEncrypt (rnd : EncRand) (pk : PubKey P.toKeyPrims) (msg : Bytes) : Res Bytes :=
  match pk with
  | .ed25519 k => do
    let c ← P.hybridEncEd rnd.bytes k msg
    pure c.toBytes
  | .secp256k1 k => do
    let gp ← Res.ofOption (P.kDecompress (P.kCompress (P.scPoint k)))
    let (p, c) ← Res.ofOption (P.encK rnd.num gp msg)
    pure (P.kCompress p ++ c)
  | .address _ => .panic

/-- `XfrSecretKey::hybrid_decrypt` (l.360-378); slicing a lock shorter than 33 bytes panics -/
def MemoPrims.secDecrypt (sk : SecKey P.toKeyPrims) (lock : Bytes) : Res Bytes :=
  match sk with
  | .ed25519 k => do
    let c ← Res.ofOption (HybridCt.fromBytes lock)
    pure (P.hybridDecEd c k)
  | .secp256k1 k =>
    if lock.length < 33 then .panic
    else do
      let share ← Res.ofOption (P.kDecompress (lock.take 33))
      Res.ofOption (P.decK (P.scNum k) share (lock.drop 33))
  | .address _ => .panic

/-- `XfrSecretKey::into_keypair` (l.339-355), the public key of a secret key; `addr` hashes a secp256k1 key to an address
(l.702-711) -/
def MemoPrims.pubOf (addr : P.ScPK → Addr) : SecKey P.toKeyPrims → PubKey P.toKeyPrims
  | .ed25519 k => .ed25519 (P.edOfSecret k)
  | .secp256k1 k => .secp256k1 (P.scOfSecret k)
  | .address k => .address (addr (P.scOfSecret k))

/-! ### C38 -/

omit [AddCommGroup E] [AddCommGroup K] in
theorem sym_sym (key msg : Bytes) : P.sym key (P.sym key msg) = msg := by
  unfold MemoPrims.sym
  apply List.ext_getElem?
  intro i
  simp only [List.getElem?_mapIdx, Option.map_map]
  cases msg[i]? with
  | none => rfl
  | some x =>
    simp only [Option.map_some, Function.comp_apply]
    rw [UInt8.xor_assoc, UInt8.xor_self, UInt8.xor_zero]

omit [AddCommGroup E] [AddCommGroup K] in
/-- C38: every byte of a message is encrypted with the byte of the key stream at its own place, and nothing is added or lost. -/
theorem C38_key_stream (key msg : Bytes) : (P.sym key msg).length = msg.length ∧
    ∀ (i : Nat) (b c : UInt8), msg[i]? = some b → (P.sym key msg)[i]? = some c → b ^^^ c = P.keystream key i := by
  unfold MemoPrims.sym
  refine ⟨by simp, fun i b c hb hc => ?_⟩
  rw [List.getElem?_mapIdx, hb] at hc
  obtain rfl := Option.some.inj hc
  rw [← UInt8.xor_assoc, UInt8.xor_self, UInt8.zero_xor]

include hP in
/-- C38: decryption with an X25519 secret key inverts encryption to its public key, for every message, key and ephemeral
secret. -/
theorem C38_x25519_round_trip (e sk msg : Bytes) :
    ∃ c, P.hybridEncX e (P.xPublic (xSecret sk)) msg = some c ∧ P.hybridDecX c (xSecret sk) = msg := by
  unfold MemoPrims.hybridEncX
  rw [dif_pos (keyFromX_len P hP _ _)]
  refine ⟨_, rfl, ?_⟩
  simp only [MemoPrims.hybridDecX, MemoPrims.keyFromX, MemoPrims.xPublic]
  rw [hP.x_comm, sym_sym]

include hP in
/-- C38: decryption with an Ed25519 secret key inverts encryption to its public key. -/
theorem C38_ed25519_round_trip (e : Bytes) (sk : P.EdSK) (msg : Bytes) :
    ∃ c, P.hybridEncEd e (P.edOfSecret sk) msg = .ok c ∧ P.hybridDecEd c sk = msg := by
  unfold MemoPrims.hybridEncEd
  rw [hP.ed_pub, hP.ed_rt]
  simp only [Res.unwrap_some, Res.bind_ok, hP.mont]
  obtain ⟨c, hc, hd⟩ := C38_x25519_round_trip P hP e (edClamp (P.edHash sk)) msg
  have hx : xSecret (edClamp (P.edHash sk)) = edClamp (P.edHash sk) := clamp_edClamp _
  rw [hx] at hc hd
  refine ⟨c, ?_, ?_⟩
  · show Res.unwrap (P.hybridEncX e (P.x25519 (ofLE (edClamp (P.edHash sk))) P.xBase) msg) = _
    rw [show P.x25519 (ofLE (edClamp (P.edHash sk))) P.xBase = P.xPublic (edClamp (P.edHash sk)) from rfl, hc]
    rfl
  · unfold MemoPrims.hybridDecEd MemoPrims.edScalarBytes
    rw [fromBits_edClamp, hx, hd]

include hP in
/-- C38: the encryption of anonymous transfers and of secp256k1 keys: whenever it succeeds, the secret key decrypts. -/
theorem C38_secp256k1_round_trip (n sk : Nat) (msg : Bytes) (p : K) (c : Bytes)
    (h : P.encK n (sk • P.kBase) msg = some (p, c)) : P.decK sk p c = some msg := by
  unfold MemoPrims.encK at h
  obtain ⟨c', hc, h⟩ := Option.map_eq_some_iff.mp h
  simp only [Prod.mk.injEq] at h
  obtain ⟨rfl, rfl⟩ := h
  unfold MemoPrims.decK
  rw [smul_comm]
  exact hP.gcm _ _ _ hc

/-- C38: the byte form of a hybrid ciphertext round-trips both ways; strings shorter than a public key are refused. -/
theorem C38_ciphertext_bytes :
    (∀ c : HybridCt, HybridCt.fromBytes c.toBytes = some c) ∧
    (∀ b c, HybridCt.fromBytes b = some c → c.toBytes = b) ∧
    ∀ b : Bytes, HybridCt.fromBytes b = none ↔ b.length < 32 := by
  refine ⟨fun c => ?_, fun b c h => ?_, fun b => ?_⟩
  · obtain ⟨ct, epk, hl⟩ := c
    unfold HybridCt.fromBytes HybridCt.toBytes
    have h1 : (epk ++ ct).drop 32 = ct := List.drop_left' hl
    have h2 : (epk ++ ct).take 32 = epk := List.take_left' hl
    rw [dif_neg (by simp [hl])]
    simp [h1, h2]
  · unfold HybridCt.fromBytes at h
    split at h
    · simp at h
    · rw [← Option.some_injective _ h]
      exact List.take_append_drop 32 b
  · unfold HybridCt.fromBytes
    split <;> simp_all

/-- C38: X25519 secret keys, stored clamped, survive serialisation. -/
theorem C38_secret_key_bytes (b : Bytes) : xSecret (xSecret b) = xSecret b := clamp_clamp b

include hP in
/-- C38 for the keys of transfers: what is encrypted to the public key of an Ed25519 or secp256k1 secret key is decrypted by
the secret key, through the byte form. -/
theorem C38_transfer_keys (addr : P.ScPK → Addr) (rnd : EncRand) (sk : SecKey P.toKeyPrims) (msg lock : Bytes)
    (h : P.pubEncrypt rnd (P.pubOf addr sk) msg = .ok lock) : P.secDecrypt sk lock = .ok msg := by
  cases sk with
  | ed25519 k =>
    obtain ⟨c, hc, hd⟩ := C38_ed25519_round_trip P hP rnd.bytes k msg
    simp only [MemoPrims.pubEncrypt, MemoPrims.pubOf, hc, Res.bind_ok, Res.pure_eq, Res.ok.injEq] at h
    subst h
    simp only [MemoPrims.secDecrypt, C38_ciphertext_bytes.1, Res.ofOption_some, Res.bind_ok, Res.pure_eq, hd]
  | secp256k1 k =>
    simp only [MemoPrims.pubEncrypt, MemoPrims.pubOf, hP.k_rt, hP.k_pub, Res.ofOption_some, Res.bind_ok] at h
    cases he : P.encK rnd.num (P.scNum k • P.kBase) msg with
    | none => rw [he] at h; simp at h
    | some pc =>
      obtain ⟨p, c⟩ := pc
      rw [he] at h
      simp only [Res.ofOption_some, Res.bind_ok, Res.pure_eq, Res.ok.injEq] at h
      subst h
      have h1 : (P.kCompress p ++ c).take 33 = P.kCompress p := List.take_left' (hP.k_len p)
      have h2 : (P.kCompress p ++ c).drop 33 = c := List.drop_left' (hP.k_len p)
      have h3 : ¬(P.kCompress p ++ c).length < 33 := by simp [hP.k_len p]
      simp only [MemoPrims.secDecrypt, h1, h2, if_neg h3, hP.k_rt, Res.ofOption_some, Res.bind_ok,
        C38_secp256k1_round_trip P hP _ _ _ _ _ he]
  | address k => simp [MemoPrims.pubEncrypt, MemoPrims.pubOf] at h

include hP in
/-- C38: encryption to an Ed25519 key always succeeds, to a secp256k1 key whenever the cipher takes the message. -/
theorem C38_encryption_succeeds (addr : P.ScPK → Addr) (rnd : EncRand) (msg : Bytes) :
    (∀ k, ∃ lock, P.pubEncrypt rnd (P.pubOf addr (.ed25519 k)) msg = .ok lock) ∧
    ((∀ key, ∃ c, P.gcmEnc key msg = some c) → ∀ k, ∃ lock, P.pubEncrypt rnd (P.pubOf addr (.secp256k1 k)) msg = .ok lock) := by
  refine ⟨fun k => ?_, fun hg k => ?_⟩
  · obtain ⟨c, hc, _⟩ := C38_ed25519_round_trip P hP rnd.bytes k msg
    exact ⟨c.toBytes, by simp [MemoPrims.pubEncrypt, MemoPrims.pubOf, hc]⟩
  · obtain ⟨c, hc⟩ := hg (P.sha512half (P.kCompress (rnd.num • P.scNum k • P.kBase)))
    refine ⟨P.kCompress (rnd.num • P.kBase) ++ c, ?_⟩
    simp [MemoPrims.pubEncrypt, MemoPrims.pubOf, hP.k_rt, hP.k_pub, MemoPrims.encK, hc]

/-! ### Primitives that meet the assumptions -/

/-- numbers as points, encoded in little-endian bytes; keys are their own encodings -/
def toyPrims : MemoPrims (ZMod 97) (ZMod 101) where
  toKeyPrims := toyKeys
  edBase := 5
  edCompress := fun p => leBytes 32 p.val
  edDecompress := fun b => if ofLE b < 97 then some (ofLE b : ZMod 97) else none
  edHash := fun s => s.1
  edOfSecret := fun s => ⟨leBytes 32 (ofLE (edClamp s.1) • (5 : ZMod 97)).val, by simp⟩
  kBase := 7
  kCompress := fun p => leBytes 33 p.val
  kDecompress := fun b => if ofLE b < 101 then some (ofLE b : ZMod 101) else none
  scNum := fun s => ofLE s.1
  scPoint := fun k => (ofLE k.1 : ZMod 101)
  scOfSecret := fun s => ⟨leBytes 33 (ofLE s.1 • (7 : ZMod 101)).val, by simp⟩
  x25519 := fun n u => leBytes 32 (n • (ofLE u : ZMod 97)).val
  xBase := [5]
  montgomery := fun p => leBytes 32 p.val
  sha256 := fun b => b
  sha512half := fun b => b
  keystream := fun k i => UInt8.ofNat (ofLE k + i)
  gcmEnc := fun k m => some (UInt8.ofNat (ofLE k) :: m)
  gcmDec := fun k c => match c with
    | [] => none
    | t :: m => if t = UInt8.ofNat (ofLE k) then some m else none

theorem toy_ofLE (n k : Nat) (h : k < 101) : ofLE (leBytes (n + 1) k) = k :=
  ofLE_leBytes_of_lt (lt_of_lt_of_le (by omega) (Nat.le_self_pow (by omega) 256))

theorem toy_ed (p : ZMod 97) : ofLE (leBytes 32 p.val) = p.val := toy_ofLE 31 _ (by have := ZMod.val_lt p; omega)

theorem toy_k (p : ZMod 101) : ofLE (leBytes 33 p.val) = p.val := toy_ofLE 32 _ (ZMod.val_lt p)

theorem toyPrims_laws : MemoLaws toyPrims where
  keys := toyKeys_laws
  ed_len := fun p => by simp [toyPrims]
  ed_rt := fun p => by
    simp only [toyPrims, toy_ed, ZMod.val_lt p, if_true, ZMod.natCast_val, ZMod.cast_id', id]
  hash_len := fun s => s.2
  ed_pub := fun s => rfl
  k_len := fun p => by simp [toyPrims]
  k_rt := fun p => by
    simp only [toyPrims, toy_k, ZMod.val_lt p, if_true, ZMod.natCast_val, ZMod.cast_id', id]
  k_pub := fun s => by
    simp only [toyPrims, toy_k, ZMod.natCast_val, ZMod.cast_id', id]
  x_len := fun n u => by simp [toyPrims]
  x_comm := fun a b => by
    simp only [toyPrims, toy_ed, ZMod.natCast_val, ZMod.cast_id', id]
    rw [smul_comm]
  mont := fun n => rfl
  gcm := fun k m c h => by
    simp only [toyPrims, Option.some.injEq] at h
    subst h
    simp [toyPrims]

/-- the assumptions are met, and an actual message goes round -/
example : ∃ lock, toyPrims.pubEncrypt ⟨List.replicate 32 9, 12⟩ (toyPrims.pubOf (fun _ => ⟨List.replicate 20 0, rfl⟩)
    (.secp256k1 ⟨List.replicate 32 3, rfl⟩)) [1, 2, 3] = .ok lock ∧
    toyPrims.secDecrypt (.secp256k1 ⟨List.replicate 32 3, rfl⟩) lock = .ok [1, 2, 3] := by
  obtain ⟨lock, h⟩ := (C38_encryption_succeeds toyPrims toyPrims_laws (fun _ => ⟨List.replicate 20 0, rfl⟩)
    ⟨List.replicate 32 9, 12⟩ [1, 2, 3]).2 (fun key => ⟨_, rfl⟩) ⟨List.replicate 32 3, rfl⟩
  exact ⟨lock, h, C38_transfer_keys toyPrims toyPrims_laws _ _ _ _ _ h⟩

end Verif.Xfr
