import Mathlib.Data.Nat.Basic
import Mathlib.Tactic.Ring
import Mathlib.Tactic.Linarith

/-!
Fixed-width little- and big-endian byte encodings (`to_le_bytes`, `to_be_bytes`, `from_le_bytes`,
`from_be_bytes` of the Rust standard library), shared by the other modules.
-/

namespace Verif

abbrev Byte := UInt8
abbrev Bytes := List UInt8

/-- `x.to_le_bytes()` for an `n`-byte unsigned integer (standard library). -/
def leBytes : Nat → Nat → Bytes
  | 0, _ => []
  | n + 1, k => UInt8.ofNat k :: leBytes n (k / 256)

/-- `uN::from_le_bytes` (standard library). -/
def ofLE : Bytes → Nat
  | [] => 0
  | b :: bs => b.toNat + 256 * ofLE bs

/-- `x.to_be_bytes()`. -/
def beBytes (n k : Nat) : Bytes := (leBytes n k).reverse

/-- `uN::from_be_bytes`. -/
def ofBE (bs : Bytes) : Nat := ofLE bs.reverse

@[simp] theorem leBytes_length (n k : Nat) : (leBytes n k).length = n := by
  induction n generalizing k with
  | zero => rfl
  | succ n ih => simp [leBytes, ih]

@[simp] theorem beBytes_length (n k : Nat) : (beBytes n k).length = n := by
  simp [beBytes]

theorem ofLE_leBytes (n k : Nat) : ofLE (leBytes n k) = k % 256 ^ n := by
  induction n generalizing k with
  | zero => simp [leBytes, ofLE, Nat.mod_one]
  | succ n ih =>
    simp only [leBytes, ofLE, ih]
    rw [pow_succ, Nat.mul_comm (256 ^ n) 256, Nat.mod_mul]
    simp

theorem ofBE_beBytes (n k : Nat) : ofBE (beBytes n k) = k % 256 ^ n := by
  simp [ofBE, beBytes, ofLE_leBytes]

theorem ofLE_leBytes_of_lt {n k : Nat} (h : k < 256 ^ n) : ofLE (leBytes n k) = k := by
  rw [ofLE_leBytes, Nat.mod_eq_of_lt h]

theorem ofBE_beBytes_of_lt {n k : Nat} (h : k < 256 ^ n) : ofBE (beBytes n k) = k := by
  rw [ofBE_beBytes, Nat.mod_eq_of_lt h]

theorem leBytes_inj {n a b : Nat} (ha : a < 256 ^ n) (hb : b < 256 ^ n)
    (h : leBytes n a = leBytes n b) : a = b := by
  have := congrArg ofLE h
  rwa [ofLE_leBytes_of_lt ha, ofLE_leBytes_of_lt hb] at this

theorem beBytes_inj {n a b : Nat} (ha : a < 256 ^ n) (hb : b < 256 ^ n)
    (h : beBytes n a = beBytes n b) : a = b := by
  have := congrArg ofBE h
  rwa [ofBE_beBytes_of_lt ha, ofBE_beBytes_of_lt hb] at this

theorem ofLE_lt (bs : Bytes) : ofLE bs < 256 ^ bs.length := by
  induction bs with
  | nil => simp [ofLE]
  | cons b bs ih =>
    have hb : b.toNat < 256 := b.toNat_lt
    simp only [ofLE, List.length_cons, pow_succ]
    omega

theorem ofBE_lt (bs : Bytes) : ofBE bs < 256 ^ bs.length := by
  simpa [ofBE] using ofLE_lt bs.reverse

theorem leBytes_ofLE (bs : Bytes) : leBytes bs.length (ofLE bs) = bs := by
  induction bs with
  | nil => rfl
  | cons b bs ih =>
    have hb : b.toNat < 256 := b.toNat_lt
    simp only [List.length_cons, ofLE, leBytes]
    have h1 : (b.toNat + 256 * ofLE bs) / 256 = ofLE bs := by omega
    have h2 : UInt8.ofNat (b.toNat + 256 * ofLE bs) = b := by
      apply UInt8.toNat_inj.mp
      simp
    rw [h1, h2, ih]

theorem beBytes_ofBE (bs : Bytes) : beBytes bs.length (ofBE bs) = bs := by
  have := leBytes_ofLE bs.reverse
  simp only [List.length_reverse] at this
  simp [beBytes, ofBE, this]

theorem ofLE_append (a b : Bytes) : ofLE (a ++ b) = ofLE a + 256 ^ a.length * ofLE b := by
  induction a with
  | nil => simp [ofLE]
  | cons x xs ih => simp only [List.cons_append, ofLE, ih, List.length_cons, pow_succ]; ring

theorem ofLE_inj {a b : Bytes} (hl : a.length = b.length) (h : ofLE a = ofLE b) : a = b := by
  rw [← leBytes_ofLE a, ← leBytes_ofLE b, hl, h]

end Verif
