import Mathlib.Data.ZMod.Basic
import Verif.Bytes
import Verif.Res

/-!
Scalars as bytes, integers and limbs: the implementations of the trait `Scalar` (algebra/src/traits.rs:11-106) by
`BLSScalar` (bls12_381.rs), `JubjubScalar` (jubjub.rs), `SECP256K1Scalar` (secp256k1.rs), `SECQ256K1Scalar`
(secq256k1.rs) and `RistrettoScalar` (ristretto.rs).

The first four wrap a prime field of arkworks, which stores one representative per element: a value is an element of
`ZMod q`, `into_repr` is its canonical representative, and `from_le_bytes_mod_order` reduces.  `RistrettoScalar` wraps
`curve25519_dalek::scalar::Scalar` (version 3), which stores 32 bytes and compares them: a value is a number below `2^255`
that need not be reduced.
-/

namespace Verif.Codec

/-! ### Slices -/

/-- `&b[i..j]`: a panic when the range is not inside the slice (standard library) -/
def slice (b : Bytes) (i j : Nat) : Res Bytes :=
  if i ≤ j ∧ j ≤ b.length then .ok ((b.drop i).take (j - i)) else .panic

/-- `u8_le_slice_to_u64`, algebra/src/utils.rs:17-21: `copy_from_slice` into an array of eight bytes panics for any other
length -/
def u8LeSliceToU64 (b : Bytes) : Res Nat := if b.length = 8 then .ok (ofLE b) else .panic

/-! ### The orders -/

/-- `BLSScalar::get_field_size_biguint`, bls12_381.rs:269-275 -/
def blsSize : Nat := 52435875175126190479447740508185965837690552500527637822603658699938581184513

/-- `BLSScalar::get_field_size_le_bytes`, bls12_381.rs:278-285 -/
def blsSizeBytes : Bytes :=
  [0x01, 0x00, 0x00, 0x00, 0xff, 0xff, 0xff, 0xff, 0xfe, 0x5b, 0xfe, 0xff, 0x02, 0xa4,
   0xbd, 0x53, 0x05, 0xd8, 0xa1, 0x09, 0x08, 0xd8, 0x39, 0x33, 0x48, 0x7d, 0x9d, 0x29,
   0x53, 0xa7, 0xed, 0x73]

/-- `JubjubScalar::get_field_size_biguint`, jubjub.rs:232-238 -/
def jubjubSize : Nat := 6554484396890773809930967563523245729705921265872317281365359162392183254199

/-- `JubjubScalar::get_field_size_le_bytes`, jubjub.rs:223-229 -/
def jubjubSizeBytes : Bytes :=
  [183, 44, 247, 214, 94, 14, 151, 208, 130, 16, 200, 204, 147, 32, 104, 166, 0, 59, 52,
   1, 1, 59, 103, 6, 169, 175, 51, 101, 234, 180, 125, 14]

/-- `SECP256K1Scalar::get_field_size_biguint`, secp256k1.rs:234-240 -/
def secpSize : Nat := 115792089237316195423570985008687907852837564279074904382605163141518161494337

/-- `SECP256K1Scalar::get_field_size_le_bytes`, secp256k1.rs:243-250 -/
def secpSizeBytes : Bytes :=
  [0x41, 0x41, 0x36, 0xd0, 0x8c, 0x5e, 0xd2, 0xbf, 0x3b, 0xa0, 0x48, 0xaf, 0xe6, 0xdc,
   0xae, 0xba, 0xfe, 0xff, 0xff, 0xff, 0xff, 0xff, 0xff, 0xff, 0xff, 0xff, 0xff, 0xff,
   0xff, 0xff, 0xff, 0xff]

/-- `SECQ256K1Scalar::get_field_size_biguint`, secq256k1.rs:210-216 -/
def secqSize : Nat := 115792089237316195423570985008687907853269984665640564039457584007908834671663

/-- `SECQ256K1Scalar::get_field_size_le_bytes`, secq256k1.rs:219-226 -/
def secqSizeBytes : Bytes :=
  [0x2f, 0xfc, 0xff, 0xff, 0xfe, 0xff, 0xff, 0xff, 0xff, 0xff, 0xff, 0xff, 0xff, 0xff,
   0xff, 0xff, 0xff, 0xff, 0xff, 0xff, 0xff, 0xff, 0xff, 0xff, 0xff, 0xff, 0xff, 0xff,
   0xff, 0xff, 0xff, 0xff]

/-- `RistrettoScalar::get_field_size_biguint`, ristretto.rs:214-220 -/
def ristSize : Nat := 7237005577332262213973186563042994240857116359379907606001950938285454250989

/-- `RistrettoScalar::get_field_size_le_bytes`, ristretto.rs:223-231 -/
def ristSizeBytes : Bytes :=
  [0xed, 0xd3, 0xf5, 0x5c, 0x1a, 0x63, 0x12, 0x58, 0xd6, 0x9c, 0xf7, 0xa2, 0xde, 0xf9,
   0xde, 0x14, 0x00, 0x00, 0x00, 0x00, 0x00, 0x00, 0x00, 0x00, 0x00, 0x00, 0x00, 0x00,
   0x00, 0x00, 0x00, 0x10]

/-! ### The four scalar types on arkworks -/

/-- a scalar type on arkworks: the order and the number of bytes of `into_repr().to_bytes_le()`, which is 32 for
`BigInteger256` and 40 for `BigInteger320` -/
structure Ark where
  q : Nat
  reprLen : Nat

/-- `BLSScalar` (`BigInteger256`, bls12_381.rs:37) -/
def bls : Ark := ⟨blsSize, 32⟩

/-- `JubjubScalar` (the scalar field of `ark_ed_on_bls12_381`, on `BigInteger256`) -/
def jubjub : Ark := ⟨jubjubSize, 32⟩

/-- `SECP256K1Scalar` (`BigInteger320`, secp256k1.rs:33) -/
def secp : Ark := ⟨secpSize, 40⟩

/-- `SECQ256K1Scalar` (`BigInteger320`, secq256k1.rs:31) -/
def secq : Ark := ⟨secqSize, 40⟩

/-- `from_bytes`: bls12_381.rs:309-317, jubjub.rs:262-271, secp256k1.rs:273-281, secq256k1.rs:250-258.  The padded array that
the code builds is not used. -/
def Ark.fromBytes (A : Ark) (b : Bytes) : Res (ZMod A.q) :=
  if b.length > 32 then .err else .ok (ofLE b : ZMod A.q)

/-- `into_repr().to_bytes_le()` (arkworks) -/
def Ark.repr (A : Ark) (x : ZMod A.q) : Bytes := leBytes A.reprLen x.val

/-- `to_bytes` of `BLSScalar` and `JubjubScalar`: all the bytes of the representative (bls12_381.rs:304-306,
jubjub.rs:257-259); of `SECP256K1Scalar` and `SECQ256K1Scalar`: the first 32 of 40 bytes (secp256k1.rs:268-270,
secq256k1.rs:245-247).  Taking 32 of 32 bytes is taking all of them. -/
def Ark.toBytes (A : Ark) (x : ZMod A.q) : Bytes := (A.repr x).take 32

/-- `get_little_endian_u64` of `BLSScalar` (bls12_381.rs:288-295), `JubjubScalar` (jubjub.rs:241-248) and `SECP256K1Scalar`
(secp256k1.rs:253-260): four limbs, the last from the bytes that remain -/
def Ark.limbs4 (A : Ark) (x : ZMod A.q) : Res (List Nat) := do
  let a := A.repr x
  let a1 ← u8LeSliceToU64 (← slice a 0 8)
  let a2 ← u8LeSliceToU64 (← slice a 8 16)
  let a3 ← u8LeSliceToU64 (← slice a 16 24)
  let a4 ← u8LeSliceToU64 (← slice a 24 a.length)
  pure [a1, a2, a3, a4]

/-- `get_little_endian_u64` of `SECQ256K1Scalar` (secq256k1.rs:229-237): five limbs -/
def Ark.limbs5 (A : Ark) (x : ZMod A.q) : Res (List Nat) := do
  let a := A.repr x
  let a1 ← u8LeSliceToU64 (← slice a 0 8)
  let a2 ← u8LeSliceToU64 (← slice a 8 16)
  let a3 ← u8LeSliceToU64 (← slice a 16 24)
  let a4 ← u8LeSliceToU64 (← slice a 24 32)
  let a5 ← u8LeSliceToU64 (← slice a 32 a.length)
  pure [a1, a2, a3, a4, a5]

/-- `From<&BigUint>`: bls12_381.rs:115-120, jubjub.rs:191-196, secp256k1.rs:201-206, secq256k1.rs:407-412; arkworks reduces -/
def Ark.fromBig (A : Ark) (n : Nat) : ZMod A.q := n

/-- `Into<BigUint>`: bls12_381.rs:108-113, jubjub.rs:184-189, secp256k1.rs:193-199, secq256k1.rs:399-405 -/
def Ark.toBig (A : Ark) (x : ZMod A.q) : Nat := x.val

/-- `inv`: bls12_381.rs:320-326, jubjub.rs:274-280, secp256k1.rs:284-290, secq256k1.rs:261-267; `inverse` of arkworks is
`none` on zero.  `ZMod` computes the inverse of the other elements. -/
def Ark.inv (A : Ark) (x : ZMod A.q) : Res (ZMod A.q) := if x = 0 then .err else .ok x⁻¹

/-! ### `RistrettoScalar` -/

/-- the 32 bytes of a `curve25519_dalek::scalar::Scalar` as a number; the library keeps the top bit clear.  The derived
equality of `RistrettoScalar` (ristretto.rs:18) is that of the bytes, hence of the number. -/
abbrev RScalar := { n : Nat // n < 2 ^ 255 }

/-- `Scalar::from_bits` on 32 bytes: clears the top bit and nothing more (curve25519-dalek) -/
def fromBits (b : Bytes) : RScalar := ⟨ofLE b % 2 ^ 255, Nat.mod_lt _ (by decide)⟩

/-- a reduced scalar -/
def reduced (n : Nat) : RScalar :=
  ⟨n % ristSize, lt_of_lt_of_le (Nat.mod_lt _ (by decide)) (by decide +kernel)⟩

/-- `from_bytes`, ristretto.rs:251-258: pads with zeros to 32 bytes -/
def rFromBytes (b : Bytes) : Res RScalar :=
  if b.length > 32 then .err else .ok (fromBits (b ++ List.replicate (32 - b.length) 0))

/-- `to_bytes`, ristretto.rs:246-248 -/
def rToBytes (x : RScalar) : Bytes := leBytes 32 x.1

/-- `x.to_bytes_le()` of a `BigUint`: as few bytes as the number has, one for zero (num-bigint) -/
def bigBytes (n : Nat) : Bytes := if n = 0 then [0] else leBytes (Nat.log 256 n + 1) n

/-- `From<&BigUint>`, ristretto.rs:175-187: the slice of the first 32 bytes panics when there are fewer -/
def rFromBig (x : Nat) : Res RScalar := do
  let bytes ← slice (bigBytes (x % ristSize)) 0 32
  pure (reduced (ofLE bytes))

/-- `Into<BigUint>`, ristretto.rs:168-173 -/
def rToBig (x : RScalar) : Nat := ofLE (rToBytes x)

/-- `get_little_endian_u64`, ristretto.rs:234-238: `read_u64_into` four words from the 32 bytes -/
def rLimbs (x : RScalar) : List Nat :=
  [ofLE ((rToBytes x).take 8), ofLE (((rToBytes x).drop 8).take 8), ofLE (((rToBytes x).drop 16).take 8),
   ofLE ((rToBytes x).drop 24)]

/-- `Add`, ristretto.rs:64-71; the library reduces the sum, also when the operands are not reduced -/
def rAdd (x y : RScalar) : RScalar := reduced (x.1 + y.1)

/-- `Sub`, ristretto.rs:105-112 -/
def rSub (x y : RScalar) : RScalar := reduced (x.1 + (ristSize - y.1 % ristSize))

/-- `Mul`, ristretto.rs:73-80 -/
def rMul (x y : RScalar) : RScalar := reduced (x.1 * y.1)

/-- `Neg`, ristretto.rs:142-149 -/
def rNeg (x : RScalar) : RScalar := reduced (ristSize - x.1 % ristSize)

/-- `is_zero`, ristretto.rs:58-61 -/
def rIsZero (x : RScalar) : Bool := decide (x = ⟨0, by decide⟩)

/-- `inv`, ristretto.rs:261-263: `invert` raises to the power `ℓ - 2`, so it sends zero to zero, and the result is `Ok` -/
def rInv (x : RScalar) : Res RScalar := .ok (reduced (x.1 ^ (ristSize - 2)))

/-! ### Lemmas -/

theorem repr_length (A : Ark) (x : ZMod A.q) : (A.repr x).length = A.reprLen := by simp [Ark.repr]

theorem leBytes_take (n m k : Nat) (h : n ≤ m) : (leBytes m k).take n = leBytes n k := by
  induction n generalizing m k with
  | zero => simp [leBytes]
  | succ n ih =>
    obtain ⟨m, rfl⟩ : ∃ m', m = m' + 1 := ⟨m - 1, by omega⟩
    simp [leBytes, ih m (k / 256) (by omega)]

theorem leBytes_drop (n m k : Nat) (h : n ≤ m) : (leBytes m k).drop n = leBytes (m - n) (k / 256 ^ n) := by
  induction n generalizing m k with
  | zero => simp
  | succ n ih =>
    obtain ⟨m, rfl⟩ : ∃ m', m = m' + 1 := ⟨m - 1, by omega⟩
    rw [leBytes, List.drop_succ_cons, ih m (k / 256) (by omega), Nat.div_div_eq_div_mul, Nat.add_sub_add_right, pow_succ']

theorem toBytes_eq (A : Ark) (h : 32 ≤ A.reprLen) (x : ZMod A.q) : A.toBytes x = leBytes 32 x.val :=
  leBytes_take 32 A.reprLen x.val h

theorem ofLE_pad (l : Bytes) (n : Nat) : ofLE (l ++ List.replicate n 0) = ofLE l := by
  rw [ofLE_append]
  have : ofLE (List.replicate n (0 : UInt8)) = 0 := by
    induction n with
    | zero => rfl
    | succ n ih => simp [List.replicate_succ, ofLE, ih]
  simp [this]

theorem slice_leBytes (m k i j : Nat) (hij : i ≤ j) (hj : j ≤ m) :
    slice (leBytes m k) i j = .ok (leBytes (j - i) (k / 256 ^ i)) := by
  have h : i ≤ j ∧ j ≤ (leBytes m k).length := ⟨hij, by simpa using hj⟩
  rw [slice, if_pos h, leBytes_drop i m k (by omega), leBytes_take _ _ _ (by omega)]

theorem u64_leBytes (k : Nat) : u8LeSliceToU64 (leBytes 8 k) = .ok (k % 2 ^ 64) := by
  rw [u8LeSliceToU64, if_pos (by simp), ofLE_leBytes]
  norm_num

theorem u64_leBytes_ne (n k : Nat) (h : n ≠ 8) : u8LeSliceToU64 (leBytes n k) = .panic := by
  rw [u8LeSliceToU64, if_neg (by simpa using h)]

theorem bigBytes_length_lt (n : Nat) : (bigBytes n).length < 32 ↔ n < 256 ^ 31 := by
  by_cases h0 : n = 0
  · subst h0; simp [bigBytes]
  · have h : (bigBytes n).length = Nat.log 256 n + 1 := by rw [bigBytes, if_neg h0]; simp
    rw [h]
    have := Nat.log_lt_iff_lt_pow (b := 256) (by norm_num) h0 (x := 31)
    omega

theorem ofLE_bigBytes (n : Nat) : ofLE (bigBytes n) = n := by
  by_cases h0 : n = 0
  · subst h0; rfl
  · rw [bigBytes, if_neg h0, ofLE_leBytes_of_lt (Nat.lt_pow_succ_log_self (by norm_num) n)]

end Verif.Codec
