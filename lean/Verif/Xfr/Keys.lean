import Verif.Bytes
import Verif.Res

/-!
Properties C23 and C24: byte encodings of public keys, secret keys, key pairs and signatures (api/src/xfr/sig.rs).
-/

namespace Verif.Xfr

/-- The key and signature types of the Ed25519 and secp256k1 libraries with their own byte encodings. -/
structure KeyPrims where
  EdPK : Type
  EdSK : Type
  EdSig : Type
  ScPK : Type
  ScSK : Type
  ScSig : Type
  /-- `Ed25519PublicKey::as_bytes`, `from_bytes` -/
  edPkBytes : EdPK → Bytes
  edPkParse : Bytes → Option EdPK
  /-- `Ed25519SecretKey::as_bytes`, `from_bytes` -/
  edSkBytes : EdSK → Bytes
  edSkParse : Bytes → Option EdSK
  /-- `Ed25519Signature::to_bytes`, `from_bytes` -/
  edSigBytes : EdSig → Bytes
  edSigParse : Bytes → Option EdSig
  /-- `Secp256k1PublicKey::serialize_compressed`, `parse_compressed` -/
  scPkBytes : ScPK → Bytes
  scPkParse : Bytes → Option ScPK
  /-- `Secp256k1SecretKey::serialize`, `parse_slice` -/
  scSkBytes : ScSK → Bytes
  scSkParse : Bytes → Option ScSK
  /-- `Secp256k1Signature::serialize`, `parse_standard` -/
  scSigBytes : ScSig → Bytes
  scSigParse : Bytes → Option ScSig

/-- What is assumed of the libraries: fixed lengths, and parsing a serialisation gives the object back. -/
structure KeyLaws (L : KeyPrims) : Prop where
  edPk_len : ∀ k, (L.edPkBytes k).length = 32
  edPk_rt : ∀ k, L.edPkParse (L.edPkBytes k) = some k
  edSk_len : ∀ k, (L.edSkBytes k).length = 32
  edSk_rt : ∀ k, L.edSkParse (L.edSkBytes k) = some k
  edSig_len : ∀ k, (L.edSigBytes k).length = 64
  edSig_rt : ∀ k, L.edSigParse (L.edSigBytes k) = some k
  scPk_len : ∀ k, (L.scPkBytes k).length = 33
  scPk_rt : ∀ k, L.scPkParse (L.scPkBytes k) = some k
  scSk_len : ∀ k, (L.scSkBytes k).length = 32
  scSk_rt : ∀ k, L.scSkParse (L.scSkBytes k) = some k
  scSig_len : ∀ k, (L.scSigBytes k).length = 64
  scSig_rt : ∀ k, L.scSigParse (L.scSigBytes k) = some k

/-- What is assumed of the libraries for canonicity: only the serialisation of an object parses to it. -/
structure KeyCanon (L : KeyPrims) : Prop where
  edPk : ∀ b k, L.edPkParse b = some k → L.edPkBytes k = b
  edSk : ∀ b k, L.edSkParse b = some k → L.edSkBytes k = b
  edSig : ∀ b k, L.edSigParse b = some k → L.edSigBytes k = b
  scPk : ∀ b k, L.scPkParse b = some k → L.scPkBytes k = b
  scSk : ∀ b k, L.scSkParse b = some k → L.scSkBytes k = b
  scSig : ∀ b k, L.scSigParse b = some k → L.scSigBytes k = b

/-- `KeyType` (sig.rs l.37-44) -/
inductive KeyType where
  | ed25519 | secp256k1 | address
  deriving DecidableEq, Repr

/-- `KeyType::to_byte` (l.48-54) -/
def KeyType.toByte : KeyType → UInt8
  | .ed25519 => 0
  | .secp256k1 => 1
  | .address => 2

/-- `KeyType::from_byte` (l.57-64) -/
def KeyType.fromByte (b : UInt8) : KeyType :=
  if b = 0 then .ed25519 else if b = 1 then .secp256k1 else if b = 2 then .address else .ed25519

/-- `[u8; 20]` -/
abbrev Addr := { b : Bytes // b.length = 20 }

/-- `XfrPublicKeyInner` (l.74-81) -/
inductive PubKey (L : KeyPrims) where
  | ed25519 (k : L.EdPK)
  | secp256k1 (k : L.ScPK)
  | address (h : Addr)

/-- `XfrSecretKey` (l.91-98) -/
inductive SecKey (L : KeyPrims) where
  | ed25519 (k : L.EdSK)
  | secp256k1 (k : L.ScSK)
  | address (k : L.ScSK)

/-- `RecoveryId` of the secp256k1 library: a byte below four -/
abbrev RecId := { b : UInt8 // b < 4 }

/-- `RecoveryId::parse` -/
def recParse (b : UInt8) : Option RecId := if h : b < 4 then some ⟨b, h⟩ else none

/-- `XfrSignature` (l.102-110) -/
inductive Sig (L : KeyPrims) where
  | ed25519 (s : L.EdSig)
  | secp256k1 (s : L.ScSig) (r : RecId)
  | address (s : L.ScSig) (r : RecId)

/-- `XfrKeyPair` (l.115-120) -/
structure KeyPair (L : KeyPrims) where
  pub : PubKey L
  sec : SecKey L

variable {L : KeyPrims}

/-- `XfrPublicKey::to_bytes` (l.239-256); XFR_PUBLIC_KEY_LENGTH = 34 (l.29) -/
def PubKey.toBytes : PubKey L → Bytes
  | .ed25519 k => KeyType.ed25519.toByte :: (L.edPkBytes k ++ [0])
  | .secp256k1 k => KeyType.secp256k1.toByte :: L.scPkBytes k
  | .address h => KeyType.address.toByte :: (h.1 ++ List.replicate 13 0)

/-- `XfrPublicKey::from_bytes` (l.259-291) -/
def PubKey.fromBytes (b : Bytes) : Option (PubKey L) :=
  if b.length = 32 then (L.edPkParse b).map .ed25519
  else match b with
    | [] => none
    | t :: rest =>
      if h : rest.length = 33 then
        match KeyType.fromByte t with
        | .ed25519 => (L.edPkParse (rest.take 32)).map .ed25519
        | .secp256k1 => (L.scPkParse rest).map .secp256k1
        | .address => some (.address ⟨rest.take 20, by simp [h]⟩)
      else none

/-- `XfrSecretKey::to_bytes` (l.435-452); XFR_SECRET_KEY_LENGTH = 33 (l.27) -/
def SecKey.toBytes : SecKey L → Bytes
  | .ed25519 k => KeyType.ed25519.toByte :: L.edSkBytes k
  | .secp256k1 k => KeyType.secp256k1.toByte :: L.scSkBytes k
  | .address k => KeyType.address.toByte :: L.scSkBytes k

/-- `XfrSecretKey::from_bytes` (l.455-485) -/
def SecKey.fromBytes (b : Bytes) : Option (SecKey L) :=
  if b.length = 32 then (L.edSkParse b).map .ed25519
  else match b with
    | [] => none
    | t :: rest =>
      if rest.length = 32 then
        match KeyType.fromByte t with
        | .ed25519 => (L.edSkParse rest).map .ed25519
        | .secp256k1 => (L.scSkParse rest).map .secp256k1
        | .address => (L.scSkParse rest).map .address
      else none

/-- `XfrKeyPair::zei_to_bytes` (l.577-582) -/
def KeyPair.toBytes (p : KeyPair L) : Bytes := p.sec.toBytes ++ p.pub.toBytes

/-- `XfrKeyPair::zei_from_bytes` (l.584-589); slicing a short string panics -/
def KeyPair.fromBytes (b : Bytes) : Res (KeyPair L) :=
  if b.length < 33 then .panic
  else do
    let s ← Res.ofOption (SecKey.fromBytes (b.take 33))
    let p ← Res.ofOption (PubKey.fromBytes (b.drop 33))
    pure ⟨p, s⟩

/-- `XfrSignature::to_bytes` (l.594-614); XFR_SIGNATURE_LENGTH = 66 (l.31) -/
def Sig.toBytes : Sig L → Bytes
  | .ed25519 s => KeyType.ed25519.toByte :: (L.edSigBytes s ++ [0])
  | .secp256k1 s r => KeyType.secp256k1.toByte :: (L.scSigBytes s ++ [r.1])
  | .address s r => KeyType.address.toByte :: (L.scSigBytes s ++ [r.1])

/-- `XfrSignature::from_bytes` (l.617-653) -/
def Sig.fromBytes (b : Bytes) : Option (Sig L) :=
  if b.length = 64 then (L.edSigParse b).map .ed25519
  else match b with
    | [] => none
    | t :: rest =>
      if h : rest.length = 65 then
        match KeyType.fromByte t with
        | .ed25519 => (L.edSigParse (rest.take 64)).map .ed25519
        | .secp256k1 => do
          let s ← L.scSigParse (rest.take 64)
          let r ← recParse (rest[64]'(by omega))
          pure (.secp256k1 s r)
        | .address => do
          let s ← L.scSigParse (rest.take 64)
          let r ← recParse (rest[64]'(by omega))
          pure (.address s r)
      else none

/-- `recovery_id_from_u64` (l.692-699) -/
def recoveryId (v : UInt64) : UInt8 :=
  if v = 27 then 0 else if v = 28 then 1 else if 35 ≤ v then ((v - 1) % 2).toUInt8 else v.toUInt8

theorem fromByte_zero : KeyType.fromByte 0 = .ed25519 := rfl
theorem fromByte_one : KeyType.fromByte 1 = .secp256k1 := rfl
theorem fromByte_two : KeyType.fromByte 2 = .address := rfl

/-! ### C23 -/

theorem C23_public_key_length (h : KeyLaws L) (k : PubKey L) : k.toBytes.length = 34 := by
  cases k with
  | ed25519 k => simp [PubKey.toBytes, h.edPk_len]
  | secp256k1 k => simp [PubKey.toBytes, h.scPk_len]
  | address a => simp [PubKey.toBytes, a.2]

/-- C23: decoding the encoding of a public key returns the key. -/
theorem C23_public_key_round_trip (h : KeyLaws L) (k : PubKey L) : PubKey.fromBytes k.toBytes = some k := by
  unfold PubKey.fromBytes
  rw [if_neg (by rw [C23_public_key_length h k]; decide)]
  cases k with
  | ed25519 k =>
    have : (L.edPkBytes k ++ [0]).take 32 = L.edPkBytes k := by
      rw [← h.edPk_len k]
      exact List.take_left
    simp [PubKey.toBytes, h.edPk_len, KeyType.toByte, KeyType.fromByte, this, h.edPk_rt]
  | secp256k1 k => simp [PubKey.toBytes, h.scPk_len, KeyType.toByte, KeyType.fromByte, h.scPk_rt]
  | address a =>
    have : (a.1 ++ List.replicate 13 (0 : UInt8)).take 20 = a.1 := by
      exact List.take_left' a.2
    simp [PubKey.toBytes, a.2, KeyType.toByte, KeyType.fromByte, this]

theorem C23_secret_key_length (h : KeyLaws L) (k : SecKey L) : k.toBytes.length = 33 := by
  cases k <;> simp [SecKey.toBytes, h.edSk_len, h.scSk_len]

/-- C23: decoding the encoding of a secret key returns the key; in particular `clone` (l.304-308), which goes through the
encoding and unwraps, does not panic and is a copy. -/
theorem C23_secret_key_round_trip (h : KeyLaws L) (k : SecKey L) : SecKey.fromBytes k.toBytes = some k := by
  unfold SecKey.fromBytes
  rw [if_neg (by rw [C23_secret_key_length h k]; decide)]
  cases k <;>
    simp [SecKey.toBytes, h.edSk_len, h.scSk_len, h.edSk_rt, h.scSk_rt, KeyType.toByte, KeyType.fromByte]

/-- C23: decoding the encoding of a key pair returns the key pair. -/
theorem C23_key_pair_round_trip (h : KeyLaws L) (p : KeyPair L) : KeyPair.fromBytes p.toBytes = .ok p := by
  have hl := C23_secret_key_length h p.sec
  have h1 : p.toBytes.take 33 = p.sec.toBytes := by
    rw [← hl]
    exact List.take_left
  have h2 : p.toBytes.drop 33 = p.pub.toBytes := by
    rw [← hl]
    exact List.drop_left
  have h3 : ¬p.toBytes.length < 33 := by
    simp only [KeyPair.toBytes, List.length_append, hl]
    omega
  unfold KeyPair.fromBytes
  rw [if_neg h3, h1, h2, C23_secret_key_round_trip h, C23_public_key_round_trip h]
  rfl

/-- C23: distinct keys have distinct encodings.  Equality, order and hash of public keys, which the code defines on the
encodings (l.122-148), are therefore equality, an order and a hash of keys. -/
theorem C23_encodings_injective (h : KeyLaws L) :
    (∀ a b : PubKey L, a.toBytes = b.toBytes ↔ a = b) ∧ (∀ a b : SecKey L, a.toBytes = b.toBytes ↔ a = b) ∧
    (∀ a b : KeyPair L, a.toBytes = b.toBytes ↔ a = b) := by
  refine ⟨fun a b => ⟨fun e => ?_, congrArg _⟩, fun a b => ⟨fun e => ?_, congrArg _⟩, fun a b => ⟨fun e => ?_, congrArg _⟩⟩
  · exact Option.some_injective _ (by rw [← C23_public_key_round_trip h, ← C23_public_key_round_trip h, e])
  · exact Option.some_injective _ (by rw [← C23_secret_key_round_trip h, ← C23_secret_key_round_trip h, e])
  · have := C23_key_pair_round_trip h a
    rw [e, C23_key_pair_round_trip h] at this
    simpa using this.symm

/-- C23, canonicity of the encodings the code writes: a string of the current length with a known type byte and zero padding
that decodes re-encodes to itself.  Missing: legacy lengths, unknown type bytes and non-zero padding decode as well, see
`C23_not_canonical`. -/
theorem C23_canonical_partial (hc : KeyCanon L) (b : Bytes) (k : PubKey L) (t : UInt8) (rest : Bytes) (hb : b = t :: rest)
    (hl : rest.length = 33) (ht : t < 3) (hp : t = 0 → rest.drop 32 = [0])
    (ha : t = 2 → rest.drop 20 = List.replicate 13 0) (h : PubKey.fromBytes b = some k) : k.toBytes = b := by
  subst hb
  unfold PubKey.fromBytes at h
  rw [if_neg (by simp [hl])] at h
  simp only [hl, dite_true] at h
  have ht' : t = 0 ∨ t = 1 ∨ t = 2 := by
    have : t.toNat < 3 := ht
    rcases (by omega : t.toNat = 0 ∨ t.toNat = 1 ∨ t.toNat = 2) with h | h | h
    · exact .inl (UInt8.toNat_inj.mp h)
    · exact .inr (.inl (UInt8.toNat_inj.mp h))
    · exact .inr (.inr (UInt8.toNat_inj.mp h))
  rcases ht' with rfl | rfl | rfl
  · simp only [KeyType.fromByte, if_true] at h
    obtain ⟨k', hk, rfl⟩ := Option.map_eq_some_iff.mp h
    simp only [PubKey.toBytes, hc.edPk _ _ hk, ← hp rfl, List.take_append_drop]
    rfl
  · simp only [fromByte_zero, fromByte_one, fromByte_two] at h
    obtain ⟨k', hk, rfl⟩ := Option.map_eq_some_iff.mp h
    simp only [PubKey.toBytes, hc.scPk _ _ hk]
    rfl
  · simp only [fromByte_two, Option.some.injEq] at h
    subst h
    simp only [PubKey.toBytes, ← ha rfl, List.take_append_drop]
    rfl

/-- C23, canonicity of secret keys, with the same gap. -/
theorem C23_secret_canonical_partial (hc : KeyCanon L) (b : Bytes) (k : SecKey L) (t : UInt8) (rest : Bytes)
    (hb : b = t :: rest) (hl : rest.length = 32) (ht : t < 3) (h : SecKey.fromBytes b = some k) : k.toBytes = b := by
  subst hb
  unfold SecKey.fromBytes at h
  rw [if_neg (by simp [hl])] at h
  simp only [hl, if_true] at h
  have ht' : t = 0 ∨ t = 1 ∨ t = 2 := by
    have : t.toNat < 3 := ht
    rcases (by omega : t.toNat = 0 ∨ t.toNat = 1 ∨ t.toNat = 2) with h | h | h
    · exact .inl (UInt8.toNat_inj.mp h)
    · exact .inr (.inl (UInt8.toNat_inj.mp h))
    · exact .inr (.inr (UInt8.toNat_inj.mp h))
  rcases ht' with rfl | rfl | rfl <;> simp only [fromByte_zero, fromByte_one, fromByte_two] at h <;>
    obtain ⟨k', hk, rfl⟩ := Option.map_eq_some_iff.mp h
  · simp only [SecKey.toBytes, hc.edSk _ _ hk]
    rfl
  · simp only [SecKey.toBytes, hc.scSk _ _ hk]
    rfl
  · simp only [SecKey.toBytes, hc.scSk _ _ hk]
    rfl

/-- C23 is violated: every Ed25519 key has other encodings that decode to it.  The padding byte may have any value, the type
byte may be any byte above two, and the 32 bytes of the key alone are accepted; addresses may be padded with anything. -/
theorem C23_not_canonical (h : KeyLaws L) (k : L.EdPK) (t pad : UInt8) (ht : t = 0 ∨ 2 < t) (a : Addr) (junk : Bytes)
    (hj : junk.length = 13) :
    PubKey.fromBytes (t :: (L.edPkBytes k ++ [pad])) = some (PubKey.ed25519 k : PubKey L) ∧
    PubKey.fromBytes (L.edPkBytes k) = some (PubKey.ed25519 k : PubKey L) ∧
    PubKey.fromBytes (2 :: (a.1 ++ junk)) = some (PubKey.address a : PubKey L) := by
  have htake : (L.edPkBytes k ++ [pad]).take 32 = L.edPkBytes k := by
    rw [← h.edPk_len k]
    exact List.take_left
  have htake' : (a.1 ++ junk).take 20 = a.1 := by
    exact List.take_left' a.2
  have hty : KeyType.fromByte t = .ed25519 := by
    rcases ht with rfl | ht
    · rfl
    · have hn : (2 : UInt8).toNat < t.toNat := ht
      have hn : 2 < t.toNat := hn
      unfold KeyType.fromByte
      have h0 : t ≠ 0 := by rintro rfl; simp at hn
      have h1 : t ≠ 1 := by rintro rfl; simp at hn
      have h2 : t ≠ 2 := by rintro rfl; simp at hn
      simp [h0, h1, h2]
  refine ⟨?_, ?_, ?_⟩
  · unfold PubKey.fromBytes
    simp [h.edPk_len, hty, htake, h.edPk_rt]
  · unfold PubKey.fromBytes
    simp [h.edPk_len, h.edPk_rt]
  · unfold PubKey.fromBytes
    simp [a.2, hj, KeyType.fromByte, htake']

/-! ### C24 -/

theorem C24_signature_length (h : KeyLaws L) (s : Sig L) : s.toBytes.length = 66 := by
  cases s <;> simp [Sig.toBytes, h.edSig_len, h.scSig_len]

theorem recParse_val (r : RecId) : recParse r.1 = some r := by
  unfold recParse
  rw [dif_pos r.2]

/-- C24: decoding the encoding of a signature gives the signature. -/
theorem C24_signature_round_trip (h : KeyLaws L) (s : Sig L) : Sig.fromBytes s.toBytes = some s := by
  unfold Sig.fromBytes
  rw [if_neg (by rw [C24_signature_length h s]; decide)]
  cases s with
  | ed25519 s =>
    have : (L.edSigBytes s ++ [0]).take 64 = L.edSigBytes s := by
      rw [← h.edSig_len s]
      exact List.take_left
    simp [Sig.toBytes, h.edSig_len, KeyType.toByte, KeyType.fromByte, this, h.edSig_rt]
  | secp256k1 s r =>
    have h1 : (L.scSigBytes s ++ [r.1]).take 64 = L.scSigBytes s := by
      rw [← h.scSig_len s]
      exact List.take_left
    have h2 : (L.scSigBytes s ++ [r.1])[64]? = some r.1 := by
      rw [List.getElem?_append_right (by rw [h.scSig_len])]
      simp [h.scSig_len]
    have h3 : ∀ hlt, (L.scSigBytes s ++ [r.1])[64]'hlt = r.1 := fun hlt => by
      rw [List.getElem?_eq_getElem hlt] at h2
      exact Option.some_injective _ h2
    simp [Sig.toBytes, h.scSig_len, KeyType.toByte, KeyType.fromByte, h1, h.scSig_rt, h3, recParse_val]
  | address s r =>
    have h1 : (L.scSigBytes s ++ [r.1]).take 64 = L.scSigBytes s := by
      rw [← h.scSig_len s]
      exact List.take_left
    have h2 : (L.scSigBytes s ++ [r.1])[64]? = some r.1 := by
      rw [List.getElem?_append_right (by rw [h.scSig_len])]
      simp [h.scSig_len]
    have h3 : ∀ hlt, (L.scSigBytes s ++ [r.1])[64]'hlt = r.1 := fun hlt => by
      rw [List.getElem?_eq_getElem hlt] at h2
      exact Option.some_injective _ h2
    simp [Sig.toBytes, h.scSig_len, KeyType.toByte, KeyType.fromByte, h1, h.scSig_rt, h3, recParse_val]

/-- C24: distinct signatures have distinct encodings. -/
theorem C24_encoding_injective (h : KeyLaws L) (a b : Sig L) : a.toBytes = b.toBytes ↔ a = b :=
  ⟨fun e => Option.some_injective _ (by rw [← C24_signature_round_trip h, ← C24_signature_round_trip h, e]), congrArg _⟩

/-- C24: an old encoding, the 64 bytes of an Ed25519 signature alone, decodes to that signature; strings of any length but 64
and 66 are rejected. -/
theorem C24_legacy_and_lengths (h : KeyLaws L) :
    (∀ s : L.EdSig, Sig.fromBytes (L.edSigBytes s) = some (.ed25519 s : Sig L)) ∧
    ∀ b : Bytes, b.length ≠ 64 → b.length ≠ 66 → Sig.fromBytes (L := L) b = none := by
  refine ⟨fun s => ?_, fun b h1 h2 => ?_⟩
  · unfold Sig.fromBytes
    simp [h.edSig_len, h.edSig_rt]
  · unfold Sig.fromBytes
    rw [if_neg h1]
    cases b with
    | nil => rfl
    | cons t rest =>
      have : rest.length ≠ 65 := by simpa using h2
      simp [this]

/-- C24, key type bytes of the table: the type byte decides the kind of the signature.  Missing: bytes outside of the table,
see `C24_unknown_type_accepted`. -/
theorem C24_type_byte_partial (t : UInt8) (rest : Bytes) (s : Sig L) (ht : t < 3)
    (hl : rest.length = 65) (h : Sig.fromBytes (t :: rest) = some s) :
    (t = 0 ∧ ∃ x, s = .ed25519 x) ∨ (t = 1 ∧ ∃ x r, s = .secp256k1 x r) ∨ (t = 2 ∧ ∃ x r, s = .address x r) := by
  unfold Sig.fromBytes at h
  rw [if_neg (by simp [hl])] at h
  simp only [hl, dite_true] at h
  have ht' : t = 0 ∨ t = 1 ∨ t = 2 := by
    have : t.toNat < 3 := ht
    rcases (by omega : t.toNat = 0 ∨ t.toNat = 1 ∨ t.toNat = 2) with h | h | h
    · exact .inl (UInt8.toNat_inj.mp h)
    · exact .inr (.inl (UInt8.toNat_inj.mp h))
    · exact .inr (.inr (UInt8.toNat_inj.mp h))
  rcases ht' with rfl | rfl | rfl
  · simp only [KeyType.fromByte, if_true] at h
    obtain ⟨k', hk, rfl⟩ := Option.map_eq_some_iff.mp h
    exact .inl ⟨rfl, _, rfl⟩
  · simp only [fromByte_zero, fromByte_one, fromByte_two] at h
    obtain ⟨x, -, h⟩ := Option.bind_eq_some_iff.mp h
    obtain ⟨r, -, h⟩ := Option.bind_eq_some_iff.mp h
    exact .inr (.inl ⟨rfl, x, r, (Option.some_injective _ h).symm⟩)
  · simp only [fromByte_zero, fromByte_one, fromByte_two] at h
    obtain ⟨x, -, h⟩ := Option.bind_eq_some_iff.mp h
    obtain ⟨r, -, h⟩ := Option.bind_eq_some_iff.mp h
    exact .inr (.inr ⟨rfl, x, r, (Option.some_injective _ h).symm⟩)

/-- C24 is violated: a key type byte outside of the table is silently taken for Ed25519, and the last byte is ignored. -/
theorem C24_unknown_type_accepted (h : KeyLaws L) (s : L.EdSig) (t pad : UInt8) (ht : 2 < t) :
    Sig.fromBytes (t :: (L.edSigBytes s ++ [pad])) = some (.ed25519 s : Sig L) := by
  have htake : (L.edSigBytes s ++ [pad]).take 64 = L.edSigBytes s := by
    rw [← h.edSig_len s]
    exact List.take_left
  have hty : KeyType.fromByte t = .ed25519 := by
    have hn : (2 : UInt8).toNat < t.toNat := ht
    have hn : 2 < t.toNat := hn
    unfold KeyType.fromByte
    have h0 : t ≠ 0 := by rintro rfl; simp at hn
    have h1 : t ≠ 1 := by rintro rfl; simp at hn
    have h2 : t ≠ 2 := by rintro rfl; simp at hn
    simp [h0, h1, h2]
  unfold Sig.fromBytes
  simp [h.edSig_len, hty, htake, h.edSig_rt]

/-- C24: Ethereum `v` values.  27 and 28 stand for 0 and 1; with replay protection `v = 35 + 2 * chain + id`; smaller values
are taken as they are. -/
theorem C24_recovery_id (chain id : Nat) (hid : id < 2) (hv : 35 + 2 * chain + id < 2 ^ 64) :
    (recoveryId (UInt64.ofNat (35 + 2 * chain + id))).toNat = id ∧
    (recoveryId (UInt64.ofNat (27 + id))).toNat = id ∧
    ∀ v : UInt64, v.toNat < 27 → (recoveryId v).toNat = v.toNat := by
  have key : ∀ v : UInt64, v.toNat ≥ 35 → (recoveryId v).toNat = (v.toNat - 1) % 2 := by
    intro v hv
    unfold recoveryId
    have h1 : v ≠ 27 := by rintro rfl; simp at hv
    have h2 : v ≠ 28 := by rintro rfl; simp at hv
    have h3 : (35 : UInt64) ≤ v := by
      rw [UInt64.le_iff_toNat_le]
      exact hv
    have h4 : (1 : UInt64) ≤ v := by
      rw [UInt64.le_iff_toNat_le]
      show 1 ≤ v.toNat
      omega
    rw [if_neg h1, if_neg h2, if_pos h3]
    simp only [UInt64.toNat_toUInt8, UInt64.toNat_mod, UInt64.toNat_sub_of_le _ _ h4]
    show (v.toNat - 1) % 2 % 256 = _
    omega
  refine ⟨?_, ?_, fun v hv => ?_⟩
  · rw [key _ (by rw [UInt64.toNat_ofNat_of_lt' hv]; omega), UInt64.toNat_ofNat_of_lt' hv]
    omega
  · rcases (by omega : id = 0 ∨ id = 1) with rfl | rfl <;> rfl
  · unfold recoveryId
    have h1 : v ≠ 27 := by rintro rfl; simp at hv
    have h2 : v ≠ 28 := by rintro rfl; simp at hv
    have h3 : ¬(35 : UInt64) ≤ v := by
      rw [UInt64.le_iff_toNat_le]
      show ¬35 ≤ v.toNat
      omega
    rw [if_neg h1, if_neg h2, if_neg h3]
    simp only [UInt64.toNat_toUInt8]
    omega

example : (recoveryId 27, recoveryId 28, recoveryId 37, recoveryId 38, recoveryId 1) = (0, 1, 0, 1, 1) := by decide

/-! ### A library that meets the assumptions -/

/-- byte strings of a length -/
abbrev Fix (n : Nat) := { b : Bytes // b.length = n }

/-- parse of a fixed-length string -/
def fixParse (n : Nat) (b : Bytes) : Option (Fix n) := if h : b.length = n then some ⟨b, h⟩ else none

/-- keys and signatures that are their own encodings -/
def toyKeys : KeyPrims where
  EdPK := Fix 32
  EdSK := Fix 32
  EdSig := Fix 64
  ScPK := Fix 33
  ScSK := Fix 32
  ScSig := Fix 64
  edPkBytes := (·.1)
  edPkParse := fixParse 32
  edSkBytes := (·.1)
  edSkParse := fixParse 32
  edSigBytes := (·.1)
  edSigParse := fixParse 64
  scPkBytes := (·.1)
  scPkParse := fixParse 33
  scSkBytes := (·.1)
  scSkParse := fixParse 32
  scSigBytes := (·.1)
  scSigParse := fixParse 64

theorem fixParse_rt (n : Nat) (k : Fix n) : fixParse n k.1 = some k := by
  unfold fixParse
  rw [dif_pos k.2]

theorem fixParse_canon (n : Nat) (b : Bytes) (k : Fix n) (h : fixParse n b = some k) : k.1 = b := by
  unfold fixParse at h
  split at h
  · rw [← Option.some_injective _ h]
  · simp at h

theorem toyKeys_laws : KeyLaws toyKeys where
  edPk_len := fun k => k.2
  edPk_rt := fixParse_rt 32
  edSk_len := fun k => k.2
  edSk_rt := fixParse_rt 32
  edSig_len := fun k => k.2
  edSig_rt := fixParse_rt 64
  scPk_len := fun k => k.2
  scPk_rt := fixParse_rt 33
  scSk_len := fun k => k.2
  scSk_rt := fixParse_rt 32
  scSig_len := fun k => k.2
  scSig_rt := fixParse_rt 64

theorem toyKeys_canon : KeyCanon toyKeys where
  edPk := fixParse_canon 32
  edSk := fixParse_canon 32
  edSig := fixParse_canon 64
  scPk := fixParse_canon 33
  scSk := fixParse_canon 32
  scSig := fixParse_canon 64

/-- all theorems apply to the toy library; two different strings decode to one key -/
example : ∃ b b' : Bytes, b ≠ b' ∧ ∃ k : PubKey toyKeys, PubKey.fromBytes b = some k ∧ PubKey.fromBytes b' = some k :=
  ⟨0 :: (List.replicate 32 5 ++ [0]), 9 :: (List.replicate 32 5 ++ [7]), by decide,
    .ed25519 ⟨List.replicate 32 5, rfl⟩,
    (C23_not_canonical toyKeys_laws ⟨List.replicate 32 5, rfl⟩ 0 0 (.inl rfl) ⟨List.replicate 20 0, rfl⟩
      (List.replicate 13 0) rfl).1,
    (C23_not_canonical toyKeys_laws ⟨List.replicate 32 5, rfl⟩ 9 7 (.inr (by decide)) ⟨List.replicate 20 0, rfl⟩
      (List.replicate 13 0) rfl).1⟩

example : PubKey.fromBytes (L := toyKeys) (1 :: List.replicate 33 4) = some (.secp256k1 ⟨List.replicate 33 4, rfl⟩) ∧
    (PubKey.secp256k1 (L := toyKeys) ⟨List.replicate 33 4, rfl⟩).toBytes = 1 :: List.replicate 33 4 :=
  ⟨rfl, C23_canonical_partial toyKeys_canon _ _ 1 (List.replicate 33 4) rfl rfl (by decide) (by decide) (by decide) rfl⟩

example : SecKey.fromBytes (L := toyKeys) (2 :: List.replicate 32 4) = some (.address ⟨List.replicate 32 4, rfl⟩) ∧
    (SecKey.address (L := toyKeys) ⟨List.replicate 32 4, rfl⟩).toBytes = 2 :: List.replicate 32 4 :=
  ⟨rfl, C23_secret_canonical_partial toyKeys_canon _ _ 2 (List.replicate 32 4) rfl rfl (by decide) rfl⟩

example : Sig.fromBytes (L := toyKeys) (1 :: (List.replicate 64 3 ++ [2])) =
    some (.secp256k1 ⟨List.replicate 64 3, rfl⟩ ⟨2, by decide⟩) ∧
    Sig.fromBytes (L := toyKeys) (1 :: (List.replicate 64 3 ++ [4])) = none := ⟨rfl, rfl⟩

end Verif.Xfr
