import Mathlib.Algebra.Field.ZMod
import Mathlib.FieldTheory.Finite.Basic
import Verif.Algebra.Codec

/-!
C85: scalars as bytes, integers and limbs.

The claims are about the numbers that byte strings denote (`ofLE`, little-endian) and about residues modulo the order of the
field, not about the helpers of the model.
-/

namespace Verif.Codec

/-- what the theorems about the four types on arkworks need: a positive order that fits 32 bytes, and at least 32 bytes of
representative -/
structure Ark.Fits (A : Ark) : Prop where
  pos : 0 < A.q
  le : A.q ≤ 256 ^ 32
  len : 32 ≤ A.reprLen

theorem bls_fits : bls.Fits := ⟨by decide, by decide, by decide⟩
theorem jubjub_fits : jubjub.Fits := ⟨by decide, by decide, by decide⟩
theorem secp_fits : secp.Fits := ⟨by decide, by decide, by decide⟩
theorem secq_fits : secq.Fits := ⟨by decide, by decide, by decide⟩

/-- the byte tables of the field sizes denote the decimal constants -/
theorem C85_field_sizes :
    ofLE blsSizeBytes = blsSize ∧ ofLE jubjubSizeBytes = jubjubSize ∧ ofLE secpSizeBytes = secpSize ∧
      ofLE secqSizeBytes = secqSize ∧ ofLE ristSizeBytes = ristSize := by decide +kernel

/-! ### Types on arkworks -/

theorem ark_val_lt {A : Ark} (h : A.Fits) (x : ZMod A.q) : x.val < A.q := by
  haveI : NeZero A.q := ⟨h.pos.ne'⟩
  exact ZMod.val_lt x

/-- **Round trip.** The bytes of a scalar are 32 and decode to the scalar. -/
theorem C85_scalar_roundtrip {A : Ark} (h : A.Fits) (x : ZMod A.q) :
    (A.toBytes x).length = 32 ∧ A.fromBytes (A.toBytes x) = .ok x := by
  haveI : NeZero A.q := ⟨h.pos.ne'⟩
  rw [toBytes_eq A h.len]
  refine ⟨by simp, ?_⟩
  rw [Ark.fromBytes, if_neg (by simp), ofLE_leBytes_of_lt (lt_of_lt_of_le (ark_val_lt h x) h.le), ZMod.natCast_zmod_val]

example : bls.fromBytes (bls.toBytes 5) = .ok 5 := (C85_scalar_roundtrip bls_fits 5).2

/-- **Accepted strings.** Decoding never panics; it accepts the strings of at most 32 bytes and no others, and the scalar is the
residue of the little-endian number. -/
theorem C85_scalar_accepts {A : Ark} (h : A.Fits) (b : Bytes) :
    (b.length ≤ 32 → ∃ x, A.fromBytes b = .ok x ∧ x.val = ofLE b % A.q) ∧ (32 < b.length → A.fromBytes b = .err) := by
  haveI : NeZero A.q := ⟨h.pos.ne'⟩
  refine ⟨fun hb => ⟨(ofLE b : ZMod A.q), by rw [Ark.fromBytes, if_neg (by omega)], ZMod.val_natCast _ _⟩, fun hb => ?_⟩
  rw [Ark.fromBytes, if_pos hb]

example : (∃ x, secp.fromBytes [7, 1] = .ok x ∧ x.val = 263) ∧ secq.fromBytes (List.replicate 33 0) = .err :=
  ⟨(C85_scalar_accepts secp_fits [7, 1]).1 (by decide), (C85_scalar_accepts secq_fits _).2 (by decide)⟩

/-- **One encoding, the part that holds.** A string that decodes is the encoding of what it decodes to exactly when it has 32
bytes and denotes a number below the order.  So among the strings with these two properties different strings are different
scalars; `C85_scalar_encodings_violated` shows that other strings are accepted too. -/
theorem C85_scalar_canonical_partial {A : Ark} (h : A.Fits) (b : Bytes) (x : ZMod A.q) (hx : A.fromBytes b = .ok x) :
    A.toBytes x = b ↔ b.length = 32 ∧ ofLE b < A.q := by
  haveI : NeZero A.q := ⟨h.pos.ne'⟩
  rw [toBytes_eq A h.len]
  rw [Ark.fromBytes] at hx
  split at hx
  · cases hx
  · cases hx
    constructor
    · intro e
      have hl : b.length = 32 := by rw [← e]; simp
      refine ⟨hl, ?_⟩
      have e2 := congrArg ofLE e
      rw [ZMod.val_natCast, ofLE_leBytes_of_lt (lt_of_lt_of_le (Nat.mod_lt _ h.pos) h.le)] at e2
      rw [← e2]
      exact Nat.mod_lt _ h.pos
    · rintro ⟨hl, hlt⟩
      rw [ZMod.val_natCast, Nat.mod_eq_of_lt hlt, ← hl, leBytes_ofLE]

example : ∃ x, bls.fromBytes (3 :: List.replicate 31 0) = .ok x ∧ bls.toBytes x = 3 :: List.replicate 31 0 := by
  obtain ⟨x, hx, _⟩ := (C85_scalar_accepts bls_fits (3 :: List.replicate 31 0)).1 (by decide)
  exact ⟨x, hx, (C85_scalar_canonical_partial bls_fits _ x hx).2 ⟨by decide, by decide⟩⟩

/-- **One encoding is violated.** For each of the four types: every scalar has a second string of 32 bytes or fewer that decodes
to it as soon as its encoding ends in a zero byte, and the bytes of the order decode to zero. -/
theorem C85_scalar_encodings_violated {A : Ark} (h : A.Fits) (hlt : A.q < 256 ^ 32) :
    A.fromBytes (leBytes 32 A.q) = A.fromBytes (leBytes 32 0) ∧ leBytes 32 A.q ≠ leBytes 32 0 ∧
      ∀ b : Bytes, b.length < 32 → A.fromBytes (b ++ [0]) = A.fromBytes b := by
  refine ⟨?_, ?_, ?_⟩
  · simp only [Ark.fromBytes, leBytes_length]
    rw [ofLE_leBytes_of_lt hlt, ofLE_leBytes_of_lt (by norm_num : 0 < 256 ^ 32)]
    simp
  · intro e
    have := leBytes_inj hlt (by norm_num) e
    have := h.pos
    omega
  · intro b hb
    have e : ofLE (b ++ [0]) = ofLE b := by simpa using ofLE_pad b 1
    simp only [Ark.fromBytes, e, List.length_append, List.length_cons, List.length_nil]
    rw [if_neg (by omega), if_neg (by omega)]

example : bls.fromBytes blsSizeBytes = bls.fromBytes (List.replicate 32 0) ∧
    secp.fromBytes secpSizeBytes = secp.fromBytes (List.replicate 32 0) :=
  ⟨(C85_scalar_encodings_violated bls_fits (by decide)).1, (C85_scalar_encodings_violated secp_fits (by decide)).1⟩

/-- **Integers.** `From<&BigUint>` is the residue, `Into<BigUint>` the representative below the order. -/
theorem C85_scalar_integers {A : Ark} (h : A.Fits) (n : Nat) (x : ZMod A.q) :
    A.toBig (A.fromBig n) = n % A.q ∧ A.toBig x < A.q ∧ A.fromBig (A.toBig x) = x := by
  haveI : NeZero A.q := ⟨h.pos.ne'⟩
  exact ⟨ZMod.val_natCast _ _, ark_val_lt h x, ZMod.natCast_zmod_val x⟩

/-- the number denoted by little-endian limbs of 64 bits -/
def limbsNat (l : List Nat) : Nat := Nat.ofDigits (2 ^ 64) l

theorem four_limbs (k : Nat) (hk : k < 256 ^ 32) :
    k % 2 ^ 64 + 2 ^ 64 * (k / 256 ^ 8 % 2 ^ 64 + 2 ^ 64 * (k / 256 ^ 16 % 2 ^ 64 + 2 ^ 64 * (k / 256 ^ 24 % 2 ^ 64))) = k := by
  have e8 : k / 256 ^ 16 = k / 256 ^ 8 / 2 ^ 64 := by rw [Nat.div_div_eq_div_mul]; norm_num
  have e16 : k / 256 ^ 24 = k / 256 ^ 8 / 2 ^ 64 / 2 ^ 64 := by rw [Nat.div_div_eq_div_mul, Nat.div_div_eq_div_mul]; norm_num
  have e0 : k / 256 ^ 8 = k / 2 ^ 64 := by norm_num
  have hlt : k / 2 ^ 64 / 2 ^ 64 / 2 ^ 64 < 2 ^ 64 := by
    rw [Nat.div_div_eq_div_mul, Nat.div_div_eq_div_mul]
    exact Nat.div_lt_of_lt_mul (by norm_num at hk ⊢; exact hk)
  rw [e8, e16, e0, Nat.mod_eq_of_lt hlt, Nat.mod_add_div, Nat.mod_add_div, Nat.mod_add_div]

theorem limbs_four {A : Ark} (h : A.Fits) (h32 : A.reprLen = 32) (x : ZMod A.q) :
    ∃ l, A.limbs4 x = .ok l ∧ l.length = 4 ∧ (∀ a ∈ l, a < 2 ^ 64) ∧ limbsNat l = x.val := by
  have hx : x.val < 256 ^ 32 := lt_of_lt_of_le (ark_val_lt h x) h.le
  refine ⟨[x.val % 2 ^ 64, x.val / 256 ^ 8 % 2 ^ 64, x.val / 256 ^ 16 % 2 ^ 64, x.val / 256 ^ 24 % 2 ^ 64], ?_, rfl, ?_, ?_⟩
  · simp only [Ark.limbs4, repr_length, h32]
    simp only [Ark.repr, h32]
    rw [slice_leBytes 32 _ 0 8 (by decide) (by decide), slice_leBytes 32 _ 8 16 (by decide) (by decide),
      slice_leBytes 32 _ 16 24 (by decide) (by decide), slice_leBytes 32 _ 24 32 (by decide) (by decide)]
    simp only [Res.bind_ok, u64_leBytes, pow_zero, Nat.div_one, Res.pure_eq, Nat.reduceSub]
  · intro a ha
    simp only [List.mem_cons, List.not_mem_nil, or_false] at ha
    rcases ha with rfl | rfl | rfl | rfl <;> exact Nat.mod_lt _ (by norm_num)
  · have := four_limbs x.val hx
    simp only [limbsNat, Nat.ofDigits_cons, Nat.ofDigits_nil, Nat.mul_zero, Nat.add_zero, Nat.cast_id]
    exact this

/-- **Limbs.** `get_little_endian_u64` of `BLSScalar` and `JubjubScalar` returns four limbs below `2^64` that denote the representative. -/
theorem C85_limbs_four : ∀ A ∈ [bls, jubjub], ∀ x : ZMod A.q,
    ∃ l, A.limbs4 x = .ok l ∧ l.length = 4 ∧ (∀ a ∈ l, a < 2 ^ 64) ∧ limbsNat l = x.val := by
  intro A hA x
  simp only [List.mem_cons, List.not_mem_nil, or_false] at hA
  rcases hA with rfl | rfl
  · exact limbs_four bls_fits rfl x
  · exact limbs_four jubjub_fits rfl x

example : ∃ l, bls.limbs4 (2 ^ 64 + 3) = .ok l ∧ l.length = 4 :=
  let ⟨l, h, hl, _⟩ := C85_limbs_four bls (by simp) (2 ^ 64 + 3)
  ⟨l, h, hl⟩

theorem limbs_five {A : Ark} (h : A.Fits) (h40 : A.reprLen = 40) (x : ZMod A.q) :
    ∃ l, A.limbs5 x = .ok (l ++ [0]) ∧ l.length = 4 ∧ (∀ a ∈ l, a < 2 ^ 64) ∧ limbsNat (l ++ [0]) = x.val := by
  have hx : x.val < 256 ^ 32 := lt_of_lt_of_le (ark_val_lt h x) h.le
  have hz : x.val / 256 ^ 32 = 0 := Nat.div_eq_of_lt hx
  refine ⟨[x.val % 2 ^ 64, x.val / 256 ^ 8 % 2 ^ 64, x.val / 256 ^ 16 % 2 ^ 64, x.val / 256 ^ 24 % 2 ^ 64], ?_, rfl, ?_, ?_⟩
  · simp only [Ark.limbs5, repr_length, h40]
    simp only [Ark.repr, h40]
    rw [slice_leBytes 40 _ 0 8 (by decide) (by decide), slice_leBytes 40 _ 8 16 (by decide) (by decide),
      slice_leBytes 40 _ 16 24 (by decide) (by decide), slice_leBytes 40 _ 24 32 (by decide) (by decide),
      slice_leBytes 40 _ 32 40 (by decide) (by decide)]
    simp only [Res.bind_ok, u64_leBytes, pow_zero, Nat.div_one, Res.pure_eq, Nat.reduceSub, hz, Nat.zero_mod,
      List.cons_append, List.nil_append]
  · intro a ha
    simp only [List.mem_cons, List.not_mem_nil, or_false] at ha
    rcases ha with rfl | rfl | rfl | rfl <;> exact Nat.mod_lt _ (by norm_num)
  · have := four_limbs x.val hx
    simp only [limbsNat, List.cons_append, List.nil_append, Nat.ofDigits_cons, Nat.ofDigits_nil, Nat.mul_zero, Nat.add_zero,
      Nat.cast_id]
    exact this

/-- **Limbs of `SECQ256K1Scalar`.** Five limbs, the last one zero. -/
theorem C85_limbs_five (x : ZMod secq.q) :
    ∃ l, secq.limbs5 x = .ok (l ++ [0]) ∧ l.length = 4 ∧ (∀ a ∈ l, a < 2 ^ 64) ∧ limbsNat (l ++ [0]) = x.val := limbs_five secq_fits rfl x

example : ∃ l, secq.limbs5 9 = .ok (l ++ [0]) ∧ l.length = 4 :=
  let ⟨l, h, hl, _⟩ := C85_limbs_five 9
  ⟨l, h, hl⟩

/-- **Limbs of `SECP256K1Scalar` are violated.** Its representative has 40 bytes, but the fourth limb is read from all the bytes
from the 24th: `get_little_endian_u64` panics on every scalar. -/
theorem C85_limbs_secp_violated (x : ZMod secp.q) : secp.limbs4 x = .panic := by
  simp only [Ark.limbs4, repr_length]
  simp only [Ark.repr, secp]
  rw [slice_leBytes 40 _ 0 8 (by decide) (by decide), slice_leBytes 40 _ 8 16 (by decide) (by decide),
    slice_leBytes 40 _ 16 24 (by decide) (by decide), slice_leBytes 40 _ 24 40 (by decide) (by decide)]
  simp only [Res.bind_ok, u64_leBytes, pow_zero, Nat.div_one, Nat.reduceSub, u64_leBytes_ne 16 _ (by decide), Res.bind_panic]

/-- **Inverses.** When the order is prime, `inv` is an error on zero and the inverse on everything else. -/
theorem C85_inv {A : Ark} (hq : A.q.Prime) (x : ZMod A.q) :
    (x = 0 → A.inv x = .err) ∧ (x ≠ 0 → ∃ y, A.inv x = .ok y ∧ x * y = 1) := by
  haveI : Fact A.q.Prime := ⟨hq⟩
  refine ⟨fun h => by rw [Ark.inv, if_pos h], fun h => ⟨x⁻¹, by rw [Ark.inv, if_neg h], mul_inv_cancel₀ h⟩⟩

/-- a small field for an example -/
def seven : Ark := ⟨7, 32⟩

example : ∃ y, seven.inv 3 = .ok y ∧ (3 : ZMod seven.q) * y = 1 :=
  (C85_inv (A := seven) (by decide) 3).2 (show (3 : ZMod 7) ≠ 0 by decide)

/-! ### `RistrettoScalar` -/

/-- the residue that a scalar stands for -/
def residue (x : RScalar) : Nat := x.1 % ristSize

/-- **Round trip.** The bytes of a Ristretto scalar are 32 and decode to the same scalar, reduced or not. -/
theorem C85_ristretto_roundtrip (x : RScalar) : (rToBytes x).length = 32 ∧ rFromBytes (rToBytes x) = .ok x := by
  have hl : (rToBytes x).length = 32 := by simp [rToBytes]
  have e : fromBits (rToBytes x ++ List.replicate (32 - (rToBytes x).length) 0) = x := by
    apply Subtype.ext
    show ofLE (rToBytes x ++ _) % 2 ^ 255 = x.1
    rw [ofLE_pad, rToBytes, ofLE_leBytes_of_lt (lt_of_lt_of_le x.2 (by norm_num)), Nat.mod_eq_of_lt x.2]
  refine ⟨hl, ?_⟩
  rw [rFromBytes, if_neg (by omega), e]

/-- **Accepted strings.** Decoding accepts the strings of at most 32 bytes, never panics, and drops the top bit. -/
theorem C85_ristretto_accepts (b : Bytes) :
    (b.length ≤ 32 → ∃ x, rFromBytes b = .ok x ∧ x.1 = ofLE b % 2 ^ 255) ∧ (32 < b.length → rFromBytes b = .err) := by
  refine ⟨fun hb => ⟨_, by rw [rFromBytes, if_neg (by omega)], ?_⟩, fun hb => by rw [rFromBytes, if_pos hb]⟩
  simp [fromBits, ofLE_pad]

/-- **The value, the part that holds.** For a string that denotes a number below `2^255` the scalar stands for the residue of
that number.  Above, it does not: `C85_ristretto_value_violated`. -/
theorem C85_ristretto_value_partial (b : Bytes) (hb : b.length ≤ 32) (hlt : ofLE b < 2 ^ 255) :
    ∃ x, rFromBytes b = .ok x ∧ residue x = ofLE b % ristSize := by
  obtain ⟨x, h, hv⟩ := (C85_ristretto_accepts b).1 hb
  exact ⟨x, h, by rw [residue, hv, Nat.mod_eq_of_lt hlt]⟩

/-- **The value is violated** for the largest string of 32 bytes: the four other types reduce it, this one drops the top bit
first. -/
theorem C85_ristretto_value_violated : ∃ b : Bytes, b.length = 32 ∧
    ∀ x, rFromBytes b = .ok x → residue x ≠ ofLE b % ristSize := by
  refine ⟨List.replicate 32 255, by decide, ?_⟩
  intro x hx
  obtain ⟨y, hy, hv⟩ := (C85_ristretto_accepts (List.replicate 32 255)).1 (by decide)
  rw [hy] at hx
  cases hx
  rw [residue, hv]
  decide +kernel

/-- **Equality, the part that holds.** Scalars below the order are equal exactly when they stand for the same residue. -/
theorem C85_ristretto_equality_partial (x y : RScalar) (hx : x.1 < ristSize) (hy : y.1 < ristSize) :
    x = y ↔ residue x = residue y := by
  rw [residue, residue, Nat.mod_eq_of_lt hx, Nat.mod_eq_of_lt hy, Subtype.ext_iff]

/-- **Equality is violated.** `from_bytes` accepts the bytes of the order: the scalar acts as zero under addition and
multiplication, but it is not equal to zero, `is_zero` is false, and it is encoded by other bytes.  Likewise each scalar below
the order has a second, different form. -/
theorem C85_ristretto_equality_violated :
    (∃ z, rFromBytes ristSizeBytes = .ok z ∧ residue z = 0 ∧ rIsZero z = false ∧ (∀ x, rMul z x = reduced 0) ∧
      (∀ x, rAdd z x = reduced x.1)) ∧
    (∀ x : RScalar, x.1 < ristSize → ∃ b y, rFromBytes b = .ok y ∧ y ≠ x ∧ residue y = residue x ∧
      rToBytes y ≠ rToBytes x) := by
  refine ⟨?_, ?_⟩
  · obtain ⟨z, hz, hv⟩ := (C85_ristretto_accepts ristSizeBytes).1 (by decide)
    have hv' : z.1 = ristSize := by rw [hv]; decide +kernel
    refine ⟨z, hz, by rw [residue, hv', Nat.mod_self], ?_, ?_, ?_⟩
    · rw [rIsZero, decide_eq_false_iff_not]
      intro e
      have := congrArg Subtype.val e
      rw [hv'] at this
      exact absurd this (by decide)
    · intro x
      apply Subtype.ext
      simp [rMul, reduced, hv']
    · intro x
      apply Subtype.ext
      simp [rAdd, reduced, hv']
  · intro x hx
    have hlt : x.1 + ristSize < 2 ^ 255 := lt_of_lt_of_le (Nat.add_lt_add_right hx _) (by decide +kernel)
    have hpos : 0 < ristSize := by decide
    refine ⟨rToBytes ⟨x.1 + ristSize, hlt⟩, ⟨x.1 + ristSize, hlt⟩, (C85_ristretto_roundtrip _).2, ?_, ?_, ?_⟩
    · intro e
      have : x.1 + ristSize = x.1 := congrArg Subtype.val e
      omega
    · simp [residue]
    · intro e
      have : x.1 + ristSize = x.1 :=
        leBytes_inj (lt_of_lt_of_le hlt (by norm_num)) (lt_of_lt_of_le x.2 (by norm_num)) e
      omega

/-- **Arithmetic.** Sums, differences, products and opposites are below the order whatever the operands, and stand for the
sum, difference, product and opposite of the residues. -/
theorem C85_ristretto_arithmetic (x y : RScalar) :
    ((rAdd x y).1 < ristSize ∧ (rMul x y).1 < ristSize ∧ (rSub x y).1 < ristSize ∧ (rNeg x).1 < ristSize) ∧
    ((rAdd x y).1 : ZMod ristSize) = x.1 + y.1 ∧ ((rMul x y).1 : ZMod ristSize) = x.1 * y.1 ∧
    ((rSub x y).1 : ZMod ristSize) = x.1 - y.1 ∧ ((rNeg x).1 : ZMod ristSize) = -x.1 := by
  have hpos : 0 < ristSize := by decide
  have hneg : ∀ n : Nat, ((ristSize - n % ristSize : Nat) : ZMod ristSize) = -n := by
    intro n
    rw [Nat.cast_sub (Nat.mod_lt _ hpos).le, ZMod.natCast_self, ZMod.natCast_mod, zero_sub]
  refine ⟨⟨Nat.mod_lt _ hpos, Nat.mod_lt _ hpos, Nat.mod_lt _ hpos, Nat.mod_lt _ hpos⟩, ?_, ?_, ?_, ?_⟩
  · simp [rAdd, reduced]
  · simp [rMul, reduced]
  · simp only [rSub, reduced, ZMod.natCast_mod, Nat.cast_add, hneg]; ring
  · simp only [rNeg, reduced, ZMod.natCast_mod, hneg]

/-- **Limbs.** The four limbs denote the stored number. -/
theorem C85_ristretto_limbs (x : RScalar) : (∀ a ∈ rLimbs x, a < 2 ^ 64) ∧ limbsNat (rLimbs x) = x.1 := by
  have hx : x.1 < 256 ^ 32 := lt_of_lt_of_le x.2 (by norm_num)
  have e : rLimbs x = [x.1 % 2 ^ 64, x.1 / 256 ^ 8 % 2 ^ 64, x.1 / 256 ^ 16 % 2 ^ 64, x.1 / 256 ^ 24 % 2 ^ 64] := by
    simp only [rLimbs, rToBytes]
    rw [leBytes_drop 8 32 _ (by decide), leBytes_drop 16 32 _ (by decide), leBytes_drop 24 32 _ (by decide),
      leBytes_take 8 _ _ (by decide), leBytes_take 8 _ _ (by decide), leBytes_take 8 _ _ (by decide)]
    simp only [ofLE_leBytes]
    norm_num
  rw [e]
  refine ⟨?_, ?_⟩
  · intro a ha
    simp only [List.mem_cons, List.not_mem_nil, or_false] at ha
    rcases ha with rfl | rfl | rfl | rfl <;> exact Nat.mod_lt _ (by norm_num)
  · have := four_limbs x.1 hx
    simp only [limbsNat, Nat.ofDigits_cons, Nat.ofDigits_nil, Nat.mul_zero, Nat.add_zero, Nat.cast_id]
    exact this

/-- **Integers, the part that holds.** When the residue needs all 32 bytes, `From<&BigUint>` returns it. -/
theorem C85_ristretto_integers_partial (n : Nat) (h : 256 ^ 31 ≤ n % ristSize) :
    ∃ x, rFromBig n = .ok x ∧ x.1 = n % ristSize ∧ rToBig x = n % ristSize := by
  have hlt : n % ristSize < ristSize := Nat.mod_lt _ (by decide)
  have hl : (bigBytes (n % ristSize)).length = 32 := by
    have h1 := (bigBytes_length_lt (n % ristSize)).not.mpr (by omega)
    have h0 : n % ristSize ≠ 0 := by
      intro e; rw [e] at h; norm_num at h
    have h2 : (bigBytes (n % ristSize)).length = Nat.log 256 (n % ristSize) + 1 := by rw [bigBytes, if_neg h0]; simp
    have h3 : Nat.log 256 (n % ristSize) < 32 :=
      (Nat.log_lt_iff_lt_pow (by norm_num) h0).2 (lt_trans hlt (by decide +kernel))
    omega
  have hs : slice (bigBytes (n % ristSize)) 0 32 = .ok (bigBytes (n % ristSize)) := by
    rw [slice, if_pos ⟨by decide, hl.ge⟩]
    simp [List.take_of_length_le hl.le]
  refine ⟨reduced (n % ristSize), ?_, ?_, ?_⟩
  · rw [rFromBig, hs, Res.bind_ok, ofLE_bigBytes, Res.pure_eq]
  · simp [reduced]
  · simp only [rToBig, rToBytes, reduced, Nat.mod_mod]
    exact ofLE_leBytes_of_lt (lt_trans hlt (by decide +kernel))

example : ∃ x, rFromBig (256 ^ 31 + 5) = .ok x ∧ x.1 = 256 ^ 31 + 5 := by
  have e : (256 ^ 31 + 5) % ristSize = 256 ^ 31 + 5 := by decide +kernel
  obtain ⟨x, hx, hv, _⟩ := C85_ristretto_integers_partial (256 ^ 31 + 5) (by rw [e]; omega)
  exact ⟨x, hx, by rw [hv, e]⟩

/-- **Integers are violated.** `From<&BigUint>` panics exactly on the integers whose residue is below `256^31`: about one residue
in sixteen, among them zero and every small number. -/
theorem C85_ristretto_integers_violated (n : Nat) : rFromBig n = .panic ↔ n % ristSize < 256 ^ 31 := by
  constructor
  · intro h
    by_contra hc
    obtain ⟨x, hx, _⟩ := C85_ristretto_integers_partial n (by omega)
    rw [hx] at h
    cases h
  · intro h
    have := (bigBytes_length_lt (n % ristSize)).2 h
    rw [rFromBig, slice, if_neg (by omega), Res.bind_panic]

example : rFromBig 1 = .panic ∧ rFromBig (ristSize + 12) = .panic :=
  ⟨(C85_ristretto_integers_violated 1).2 (by decide +kernel), (C85_ristretto_integers_violated _).2 (by decide +kernel)⟩

/-- **Inverses, the part that holds.** When the order is prime, `inv` of a scalar that does not stand for zero is its inverse. -/
theorem C85_ristretto_inv_partial (hp : ristSize.Prime) (x : RScalar) (hx : residue x ≠ 0) :
    ∃ y, rInv x = .ok y ∧ ((x.1 : ZMod ristSize) * y.1) = 1 := by
  haveI : Fact ristSize.Prime := ⟨hp⟩
  refine ⟨_, rfl, ?_⟩
  have h0 : (x.1 : ZMod ristSize) ≠ 0 := by
    rw [Ne, ZMod.natCast_eq_zero_iff]
    intro hd
    exact hx (Nat.mod_eq_zero_of_dvd hd)
  simp only [reduced, ZMod.natCast_mod, Nat.cast_pow]
  rw [← pow_succ']
  have : ristSize - 2 + 1 = ristSize - 1 := by decide +kernel
  rw [this]
  exact ZMod.pow_card_sub_one_eq_one h0

/-- **Inverses are violated.** The other four types refuse to invert zero (`C85_inv`); this one returns zero as its inverse. -/
theorem C85_ristretto_inv_violated : ∃ z y, residue z = 0 ∧ rInv z = .ok y ∧ y.1 = 0 := by
  have h2 : ristSize - 2 ≠ 0 := by decide
  have hr : ∀ n, (reduced n).1 = n % ristSize := fun _ => rfl
  have hi : ∀ z : RScalar, rInv z = .ok (reduced (z.1 ^ (ristSize - 2))) := fun _ => rfl
  refine ⟨⟨0, by decide⟩, reduced 0, by simp [residue], ?_, by rw [hr, Nat.zero_mod]⟩
  rw [hi]
  generalize ristSize - 2 = e at h2
  simp only [zero_pow h2]

end Verif.Codec
