import Mathlib.FieldTheory.Finite.Basic
import Mathlib.Tactic.ReduceModChar
import Mathlib.Tactic.NormNum.PowMod
import Verif.Algebra.Bls
import Verif.Algebra.Edwards

/-!
The Jubjub curve: the twisted Edwards curve over the BLS12-381 scalar field with the constant `EDWARDS_D` of the
repository.  The addition law is complete, so its points form a group.
-/

namespace Verif.Jubjub

open Verif.Bls Verif.Edwards

/-- the bytes of `EDWARDS_D`, plonk/src/plonk/constraint_system/ecc.rs:74-77 -/
def edwardsDBytes : List Nat :=
  [0xb1, 0x3e, 0x34, 0xd6, 0xd6, 0x5f, 0x06, 0x01, 0x26, 0x9d, 0x57, 0x37, 0x6d, 0x7f, 0x2d, 0x29,
   0xd4, 0x7f, 0xbd, 0xe6, 0x07, 0x92, 0xfd, 0xf5, 0x48, 0x2b, 0xfa, 0x4b, 0xe7, 0x18, 0x93, 0x2a]

/-- the same constant as a number -/
def edwardsDNat : Nat := 19257038036680949359750312669786877991949435402254120286184196891950884077233

/-- the number is the little-endian value of the bytes -/
theorem edwardsD_bytes : edwardsDBytes.foldr (fun b acc => b + 256 * acc) 0 = edwardsDNat := by
  decide +kernel

/-- the curve constant as a field element -/
def edwardsD : ZMod r := 19257038036680949359750312669786877991949435402254120286184196891950884077233

theorem edwardsD_cast : (edwardsDNat : ZMod r) = edwardsD := rfl

/-- the comment of ecc.rs:73: `d = -(10240/10241)` -/
theorem edwardsD_fraction : (10241 : ZMod r) * edwardsD = -10240 := by
  unfold edwardsD r
  reduce_mod_char

/-- a square root of minus one -/
def sqrtNegOne : ZMod r := 3465144826073652318776269530687742778270252468765361963008

theorem sqrtNegOne_sq : sqrtNegOne ^ 2 = -1 := by
  unfold sqrtNegOne r
  reduce_mod_char

theorem edwardsD_euler : edwardsD ^ 26217937587563095239723870254092982918845276250263818911301829349969290592256 = -1 := by
  unfold edwardsD r
  reduce_mod_char

theorem two_ne_zero : (2 : ZMod r) ≠ 0 := by
  intro h
  have h2 : ((2 : Nat) : ZMod r) = 0 := by exact_mod_cast h
  rw [ZMod.natCast_eq_zero_iff] at h2
  have := Nat.le_of_dvd (by norm_num) h2
  unfold r at this
  omega

theorem edwardsD_nonsquare (s : ZMod r) : s ^ 2 ≠ edwardsD := by
  intro h
  have h1 := edwardsD_euler
  rw [← h, ← pow_mul] at h1
  have hs : s ≠ 0 := by
    rintro rfl
    rw [zero_pow (by norm_num)] at h1
    exact absurd h1.symm (neg_ne_zero.mpr one_ne_zero)
  have h2 : s ^ (r - 1) = 1 := ZMod.pow_card_sub_one_eq_one hs
  have h3 : 2 * 26217937587563095239723870254092982918845276250263818911301829349969290592256 = r - 1 := by unfold r; norm_num
  rw [h3, h2] at h1
  apply two_ne_zero
  linear_combination h1

/-- the addition law of Jubjub is complete -/
theorem complete : Complete edwardsD := ⟨two_ne_zero, ⟨_, sqrtNegOne_sq⟩, edwardsD_nonsquare⟩

/-- models `JubjubPoint` (algebra/src/jubjub.rs:27) up to representation: an affine point of the curve; arkworks keeps
the same points in extended coordinates -/
abbrev Point : Type := Edwards.Point edwardsD

instance : AddCommGroup Point := Edwards.group complete

end Verif.Jubjub
