import Mathlib.Algebra.Module.Basic
import Mathlib.Algebra.Field.Rat
import Mathlib.Algebra.Field.ZMod
import Mathlib.Tactic.Module
import Mathlib.Tactic.LinearCombination
import Mathlib.Tactic.FieldSimp
import Verif.Bytes
import Verif.Res

/-!
Property C37: exponential ElGamal (crypto/src/basic/elgamal.rs), over a group `G` that is a vector space over the scalar field
`F` (a group of prime order).
-/

namespace Verif.ElGamal

variable {F G : Type} [Field F] [AddCommGroup G] [Module F G]

/-- `ElGamalCiphertext` (l.18-23) -/
structure Ct (G : Type) where
  e1 : G
  e2 : G
  deriving DecidableEq

/-- `elgamal_key_gen` (l.47-54); `s` is the random scalar -/
def keyGen (base : G) (s : F) : F × G := (s, s • base)

/-- `elgamal_encrypt` (l.57-67) -/
def encrypt (base : G) (m r : F) (pk : G) : Ct G := ⟨r • base, m • base + r • pk⟩

/-- `elgamal_verify` (l.70-81) -/
def verify [DecidableEq G] (base : G) (m : F) (c : Ct G) (sk : F) : Bool := m • base + sk • c.e1 == c.e2

/-- `elgamal_partial_decrypt` (l.84-89) -/
def partialDecrypt (c : Ct G) (sk : F) : G := c.e2 - sk • c.e1

/-- `ElGamalCiphertext::<RistrettoPoint>::zei_to_bytes` (l.32-37) -/
def Ct.toBytes (compress : G → Bytes) (c : Ct G) : Bytes := compress c.e1 ++ compress c.e2

/-- `RistrettoPoint::from_compressed_bytes` (algebra/src/ristretto.rs l.379-385): `CompressedRistretto::from_slice` panics on a
slice that is not 32 bytes long -/
def fromCompressed (decompress : Bytes → Option G) (b : Bytes) : Res G :=
  if b.length ≠ 32 then .panic else Res.ofOption (decompress b)

/-- `zei_from_bytes` (l.38-44); slicing a shorter string panics -/
def Ct.fromBytes (decompress : Bytes → Option G) (b : Bytes) : Res (Ct G) :=
  if b.length < 32 then .panic
  else do
    let e1 ← fromCompressed decompress (b.take 32)
    let e2 ← fromCompressed decompress (b.drop 32)
    pure ⟨e1, e2⟩

/-! ### C37 -/

/-- C37: decryption with the secret key of the key pair gives the message times the base. -/
theorem C37_decrypts (base : G) (s m r : F) :
    partialDecrypt (encrypt base m r (keyGen base s).2) (keyGen base s).1 = m • base := by
  simp only [partialDecrypt, encrypt, keyGen]
  module

/-- C37: verification accepts the encrypted message and no other. -/
theorem C37_verify_iff [DecidableEq G] (base : G) (hb : base ≠ 0) (s m m' r : F) :
    verify base m' (encrypt base m r (keyGen base s).2) (keyGen base s).1 = true ↔ m' = m := by
  simp only [verify, encrypt, keyGen, beq_iff_eq]
  constructor
  · intro h
    have h2 : (m' - m) • base = 0 := by linear_combination (norm := module) h
    rcases smul_eq_zero.mp h2 with h3 | h3
    · exact sub_eq_zero.mp h3
    · exact absurd h3 hb
  · rintro rfl
    module

/-- C37, for any ciphertext, honest or not: a secret key makes at most one message acceptable, the one whose multiple of the
base partial decryption returns. -/
theorem C37_verify_unique [DecidableEq G] (base : G) (hb : base ≠ 0) (c : Ct G) (sk m : F) :
    (verify base m c sk = true ↔ partialDecrypt c sk = m • base) ∧
    ∀ m', verify base m c sk = true → verify base m' c sk = true → m' = m := by
  constructor
  · simp only [verify, partialDecrypt, beq_iff_eq]
    constructor
    · intro h
      rw [← h]
      module
    · intro h
      rw [← h]
      module
  · intro m' h h'
    simp only [verify, beq_iff_eq] at h h'
    have h2 : (m' - m) • base = 0 := by linear_combination (norm := module) h' - h
    rcases smul_eq_zero.mp h2 with h3 | h3
    · exact sub_eq_zero.mp h3
    · exact absurd h3 hb

/-- C37: under a different secret key an encryption with non-zero randomness does not open to its message. -/
theorem C37_wrong_key [DecidableEq G] (base : G) (hb : base ≠ 0) (s s' m r : F) (hs : s' ≠ s) (hr : r ≠ 0) :
    verify base m (encrypt base m r (keyGen base s).2) s' = false := by
  rw [Bool.eq_false_iff]
  simp only [verify, encrypt, keyGen, ne_eq, beq_iff_eq]
  intro h
  have h2 : ((s' - s) * r) • base = 0 := by linear_combination (norm := module) h
  rcases smul_eq_zero.mp h2 with h3 | h3
  · rcases mul_eq_zero.mp h3 with h4 | h4
    · exact hs (sub_eq_zero.mp h4)
    · exact hr h4
  · exact hb h3

/-- C37: ciphertext bytes round-trip. -/
theorem C37_bytes_round_trip (compress : G → Bytes) (decompress : Bytes → Option G)
    (hlen : ∀ g, (compress g).length = 32) (hrt : ∀ g, decompress (compress g) = some g) (c : Ct G) :
    Ct.fromBytes decompress (c.toBytes compress) = .ok c := by
  have h1 : (compress c.e1 ++ compress c.e2).take 32 = compress c.e1 := List.take_left' (hlen _)
  have h2 : (compress c.e1 ++ compress c.e2).drop 32 = compress c.e2 := List.drop_left' (hlen _)
  unfold Ct.fromBytes Ct.toBytes
  rw [h1, h2, if_neg (by simp [hlen])]
  simp [fromCompressed, hlen, hrt]

/-- Strings of any other length than 64 make the decoder panic unless the first half already fails to decode. -/
theorem C37_bad_length_panics (decompress : Bytes → Option G) (b : Bytes) (hb : b.length ≠ 64)
    (h : 32 ≤ b.length → ∃ g, decompress (b.take 32) = some g) : Ct.fromBytes decompress b = .panic := by
  unfold Ct.fromBytes
  by_cases hl : b.length < 32
  · rw [if_pos hl]
  · rw [if_neg hl]
    obtain ⟨g, hg⟩ := h (by omega)
    have h1 : (b.take 32).length = 32 := by rw [List.length_take]; omega
    have h2 : (b.drop 32).length ≠ 32 := by rw [List.length_drop]; omega
    simp only [fromCompressed, ne_eq, h1, not_true_eq_false, if_false, hg, Res.ofOption_some, Res.bind_ok, h2,
      not_false_eq_true, if_true, Res.bind_panic]

example : verify (1 : ℚ) (5 : ℚ) (encrypt 1 (5 : ℚ) 7 (keyGen (1 : ℚ) (3 : ℚ)).2) 3 = true ∧
    verify (1 : ℚ) (6 : ℚ) (encrypt 1 (5 : ℚ) 7 (keyGen (1 : ℚ) (3 : ℚ)).2) 3 = false := by
  refine ⟨(C37_verify_iff 1 one_ne_zero 3 5 5 7).mpr rfl, ?_⟩
  rw [Bool.eq_false_iff]
  exact fun h => absurd ((C37_verify_iff (1 : ℚ) one_ne_zero 3 5 6 7).mp h) (by norm_num)

example : ∃ (c : ZMod 97 → Bytes) (d : Bytes → Option (ZMod 97)), (∀ g, (c g).length = 32) ∧ ∀ g, d (c g) = some g :=
  ⟨fun p => leBytes 32 p.val, fun b => some (ofLE b : ZMod 97), fun g => by simp, fun g => by
    show some ((ofLE (leBytes 32 g.val) : Nat) : ZMod 97) = some g
    rw [ofLE_leBytes_of_lt (lt_of_lt_of_le (ZMod.val_lt g) (by norm_num))]
    simp⟩

end Verif.ElGamal
