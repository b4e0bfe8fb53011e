import Verif.Algebra.Codec

/-!
Points as bytes and the serde glue: `ZeiFromToBytes` for points and keys (algebra/src/serialization.rs:15-170), `zei_obj_serde`
(l.172-242) and the macro `serialize_deserialize!` (algebra/src/lib.rs:75-104).

The codecs of arkworks and curve25519-dalek are parameters; so is base64.
-/

namespace Verif.Codec

/-- byte strings of a length -/
abbrev Arr (n : Nat) := { b : Bytes // b.length = n }

/-- the codec of a group of arkworks: the length of the compressed form (`COMPRESSED_LEN`), `serialize`, and `deserialize` on
exactly as many bytes -/
structure ArkPoint where
  P : Type
  len : Nat
  ser : P → Bytes
  de : Arr len → Option P

/-- `to_compressed_bytes` of `BLSG1`, `BLSG2`, `BLSGt`, `JubjubPoint`, `SECP256K1G1`, `SECQ256K1G1` (for instance
bls12_381.rs:365-371) -/
def ArkPoint.toBytes (C : ArkPoint) (p : C.P) : Bytes := C.ser p

/-- `from_compressed_bytes` of the same types (for instance bls12_381.rs:383-393): a reader over the slice, from which
`deserialize` takes `len` bytes and whose rest is dropped; too few bytes are an error -/
def ArkPoint.fromBytes (C : ArkPoint) (b : Bytes) : Res C.P :=
  if h : (b.take C.len).length = C.len then Res.ofOption (C.de ⟨b.take C.len, h⟩) else .err

/-- what is assumed of the library: encodings have the length, decode to the point, and are the only strings that do -/
structure ArkPoint.Laws (C : ArkPoint) : Prop where
  len_ser : ∀ p, (C.ser p).length = C.len
  de_ser : ∀ p, C.de ⟨C.ser p, len_ser p⟩ = some p
  ser_de : ∀ b p, C.de b = some p → C.ser p = b.1

/-- the codec of a group of curve25519-dalek with 32-byte compressed points -/
structure DalekPoint where
  P : Type
  compress : P → Arr 32
  decompress : Arr 32 → Option P

/-- what is assumed of the library -/
structure DalekPoint.Laws (D : DalekPoint) : Prop where
  dec_comp : ∀ p, D.decompress (D.compress p) = some p
  comp_dec : ∀ c p, D.decompress c = some p → D.compress p = c

/-- `CompressedRistretto::from_slice`, `CompressedEdwardsY::from_slice` (curve25519-dalek 3): `copy_from_slice` into an array of
32 bytes -/
def fromSlice (b : Bytes) : Res (Arr 32) := if h : b.length = 32 then .ok ⟨b, h⟩ else .panic

/-- `zei_to_bytes` of `CompressedRistretto` and `CompressedEdwardsY`, serialization.rs:38-40, 51-53 -/
def compressedToBytes (c : Arr 32) : Bytes := c.1

/-- `zei_from_bytes` of `CompressedRistretto` and `CompressedEdwardsY`, serialization.rs:42-46, 55-59; also
`CompressedEdwardsY::from_slice`, ristretto.rs:308-310 -/
def compressedFromBytes (b : Bytes) : Res (Arr 32) := fromSlice b

/-- `RistrettoPoint::to_compressed_bytes`, ristretto.rs:366-370 -/
def DalekPoint.toBytes (D : DalekPoint) (p : D.P) : Bytes := (D.compress p).1

/-- `RistrettoPoint::from_compressed_bytes`, ristretto.rs:380-386 -/
def DalekPoint.fromBytes (D : DalekPoint) (b : Bytes) : Res D.P := do
  let c ← fromSlice b
  Res.ofOption (D.decompress c)

/-- `zei_from_bytes` of the X25519 keys, serialization.rs:148-156 and 165-173; the bytes of a public key are kept as they are -/
def x25519FromBytes (b : Bytes) : Res (Arr 32) :=
  if b.length < 32 then .err
  else if h : (b.take 32).length = 32 then .ok ⟨b.take 32, h⟩ else .panic

/-! ### Serde -/

/-- what a format holds for one of these objects: text, a byte string, or a sequence of bytes -/
inductive Wire where
  | text (s : List Char)
  | bytes (b : Bytes)
  | seq (l : Bytes)

/-- `serialize` of the macro (lib.rs:78-89) and of `zei_obj_serde` (serialization.rs:218-229) -/
def serialize {T : Type} (enc : Bytes → List Char) (toBytes : T → Bytes) (humanReadable : Bool) (x : T) : Wire :=
  if humanReadable then .text (enc (toBytes x)) else .bytes (toBytes x)

/-- `BytesVisitor`, serialization.rs:182-215: the format calls the method for what it holds -/
def visit (dec : List Char → Option Bytes) : Wire → Res Bytes
  | .text s => Res.ofOption (dec s)
  | .bytes b => .ok b
  | .seq l => .ok l

/-- `deserialize` of the macro (lib.rs:91-103) and of `zei_obj_serde` (serialization.rs:232-242); whether the format is human
readable decides which method of the deserializer is called, and the value it holds which method of the visitor -/
def deserialize {T : Type} (dec : List Char → Option Bytes) (fromBytes : Bytes → Res T) (w : Wire) : Res T := do
  let b ← visit dec w
  fromBytes b

/-- `copy_from_slice`: a panic unless the lengths agree (standard library) -/
def copyFromSlice (dst src : Bytes) : Res Bytes := if src.length = dst.length then .ok src else .panic

/-! ### `AssetType::as_scalar` -/

/-- `.unwrap()` on a `Result` -/
def unwrapRes {α : Type} : Res α → Res α
  | .ok a => .ok a
  | _ => .panic

/-- the array `zei_repr`, api/src/xfr/structs.rs:53-58: the first 30 bytes of the SHA-256 of the type and two zeros.  The hash is
a parameter. -/
def zeiRepr {T : Type} (sha : T → Arr 32) (t : T) : Bytes := (sha t).1.take 30 ++ [0, 0]

/-- `AssetType::as_scalar`, api/src/xfr/structs.rs:44-66, for a scalar type with `bytes_len` and `from_bytes` -/
def asScalar {T S : Type} (sha : T → Arr 32) (bytesLen : Nat) (fromBytes : Bytes → Res S) (t : T) : Res S :=
  if 32 = bytesLen then unwrapRes (fromBytes (zeiRepr sha t))
  else do
    let v := List.replicate bytesLen (0 : UInt8)
    let dst ← slice v 0 30
    let filled ← copyFromSlice dst (zeiRepr sha t)
    unwrapRes (fromBytes (filled ++ v.drop 30))

end Verif.Codec
